import Verif.Spec.Associate
import Verif.Props.ServerAssociate
import Verif.Props.ServerEncode
import Verif.Props.ConsumerAssociate
import Verif.Props.DH
import Verif.Props.Oidutil
/-! # Lemmas: a consumer and a server making an association with each other -/

namespace Props
open Py Message Association Cryptutil Store Discover Consumer Spec DH

theorem same_args {a b : Dict Str Str} (h : Percent.urlencode a = Percent.urlencode b) : a = b := by
  rw [← c06_urlencode_round_trip a, h, c06_urlencode_round_trip]

theorem fits_iff {t a : Str} : a ∈ assocTypesOf t ↔ SessionFits t a := by
  unfold assocTypesOf SessionFits
  constructor
  · intro h
    split at h
    · next e => simp at h; exact .inr (.inl ⟨e, h⟩)
    · split at h
      · next e => simp at h; exact .inr (.inr ⟨e, h⟩)
      · split at h
        · next e => simp at h; exact .inl ⟨e, h⟩
        · simp at h
  · rintro (⟨rfl, h⟩ | ⟨rfl, rfl⟩ | ⟨rfl, rfl⟩) <;> simp_all

/-- the server's reading of a request of the consumer -/
theorem decode_request {WS : Server.World} {WC : Consumer.World} (hsame : SameCrypto WS WC) {e : Endpoint}
    {body a t : Str} (hask : AsksFor WC e body a t) (hfit : SessionFits t a) (ES : Server.Env) (op : Option Str) :
    ∃ req, Server.decode WS ES op (Percent.parseQsl true body) = .ok (some (.associate req)) ∧ req.assocType = a ∧
      req.session.sessionType = t := by
  obtain ⟨⟨args, hw, rfl, g1, g2, g3, g4, g5⟩, hk, hkey⟩ := hask
  rw [c06_urlencode_round_trip]
  cases hm : fromPostArgs WS.reg args with
  | error x =>
    exfalso
    rcases fromPostArgs_error hw hm with ⟨-, u, hu, hn⟩ | ⟨-, -, k, hk, hdot⟩
    · have : arg args t!"ns" = some u := hu
      rw [g4] at this
      split at this <;> simp at this
      subst this; simp [OPENID2_NS] at hn
    · obtain ⟨⟨k', v⟩, hv, rfl⟩ := List.mem_map.1 hk
      have := g5 _ _ hv
      simp only at hdot
      simp only [List.mem_cons, List.not_mem_nil, or_false] at this
      rcases this with rfl | rfl | rfl | rfl | rfl <;> revert hdot <;> decide
  | ok m =>
    have hasked : SessionAsked args t a := by
      unfold SessionAsked
      by_cases hc : e.compatibilityMode = true
      · have hv : IsV1 args := by intro u hu; rw [g4, if_pos hc] at hu; cases hu
        rw [if_pos hv, g2]
        refine ⟨?_, rfl⟩
        by_cases ht : t = t!"no-encryption"
        · rw [if_pos ⟨hc, ht⟩] at g3
          rw [g3, ht]; rfl
        · rw [if_neg (fun h => ht h.2)] at g3
          rw [g3]
          simp only [List.mem_cons, List.not_mem_nil, or_false] at hk
          rcases hk with rfl | rfl | rfl <;> rfl
      · have hv : ¬ IsV1 args := by
          intro h
          have := h _ (by rw [g4, if_neg hc])
          revert this; decide
        rw [if_neg hv, g2]
        rw [if_neg (fun h => hc h.1)] at g3
        exact ⟨g3, rfl⟩
    by_cases ht : t = t!"no-encryption"
    · subst ht
      exact ⟨⟨m, .plain, a⟩, (c34_associate WS ES op args hw _).2 ⟨g1, hm, hasked, hfit, .inl rfl⟩, rfl, rfl⟩
    · obtain ⟨d, args', priv, pub, -, hb, hd, hp, h1, h2, h3⟩ := hkey ht
      have := same_args hb
      subst this
      have hnew : ∃ d', DiffieHellman.new WS.lib defaultModulus defaultGenerator ES.priv = .ok d' := by
        rw [DiffieHellman.fromDefaults, DiffieHellman.new] at hd
        obtain ⟨p, k1, hd⟩ := bind_eq_ok.1 hd
        obtain ⟨g, k2, hd⟩ := bind_eq_ok.1 hd
        split at hd
        · next hok => exact ⟨⟨p, g, ES.priv⟩, by simp [DiffieHellman.new, k1, k2, hsame.lib, hok]⟩
        · simp at hd
      obtain ⟨d', hd'⟩ := hnew
      have hraw : ∃ raw, Base64.decode pub = .ok raw := by
        rw [DiffieHellman.publicKey, longToBase64] at hp
        obtain ⟨x, -, hp⟩ := bind_eq_ok.1 hp
        simp at hp
        exact ⟨x, by rw [← hp]; exact c04_base64 x⟩
      have hmade : ∀ b, SessionMade WS ES args (.dh b d' pub) := fun b =>
        .inr ⟨b, _, _, d', pub, rfl, .inr ⟨by rw [h2]; rfl, by rw [h3]; rfl, by rw [h2, h3], rfl, rfl⟩, hd', h1, hraw⟩
      have hty : ∃ b, (Server.Session.dh b d' pub).sessionType = t := by
        simp only [List.mem_cons, List.not_mem_nil, or_false] at hk
        rcases hk with rfl | rfl | rfl
        · exact ⟨true, rfl⟩
        · exact ⟨false, rfl⟩
        · exact absurd rfl ht
      obtain ⟨b, hb⟩ := hty
      exact ⟨⟨m, .dh b d' pub, a⟩, (c34_associate WS ES op args hw _).2
        ⟨g1, hm, by rw [hb]; exact hasked, by rw [hb]; exact hfit, hmade b⟩, rfl, hb⟩

/-! ## The consumer's side of a reply -/

/-- one request, and what becomes of a usable reply -/
theorem request_reply {W : World} {E : Consumer.Env} {priv : Nat} {e : Endpoint} {a t : Str} {evs : List Ev}
    {r : Except Err (Option Assoc)} (h : Runs (requestAssociation W E priv e a t) evs r) :
    evs = [] ∨ ∃ s m o, createAssociateRequest W priv e a t = .ok (s, m) ∧ evs = [.post e.serverUrl m.toURLEncoded o] ∧
      ∀ http response x, o = .ok http → httpResponseToMessage W http = .ok response →
        extractAssociation W (E.seconds W) response s = .ok x → r = .ok (some x) := by
  rw [requestAssociation, runs_py_bind] at h
  rcases h with ⟨⟨s, m⟩, h1, h2⟩ | ⟨x, -, rfl, rfl⟩
  · right
    simp only at h2
    rw [runs_handle] at h2
    obtain ⟨e1, e2, o, rfl, h3, h4⟩ := h2
    obtain ⟨o', rfl, h5⟩ := runs_makeKVPost.1 h3
    have he2 : e2 = [] := by
      split at h4 <;> exact h4.1
    subst he2
    refine ⟨s, m, o', h1, rfl, fun http response x k1 k2 k3 => ?_⟩
    subst k1
    rcases h5 with ⟨http', hh, h5⟩ | ⟨er, hh, -⟩
    · cases hh
      subst h5
      rw [k2] at h4
      simp only at h4
      rw [← h4.2, k3]; rfl
    · cases hh
  · exact .inl rfl

/-- a request within a negotiation -/
theorem negotiate_reply {W : World} {C : Conf} {E : Consumer.Env} {e : Endpoint} {evs pre rest : List Ev} {url body : Str}
    {http : Http} {r : Except Err (Option Assoc)} (h : Runs (negotiateAssociation W C E e) evs r)
    (hevs : evs = pre ++ .post url body (.ok http) :: rest) :
    ∃ priv a t s m, (priv = E.priv1 ∨ priv = E.priv2) ∧ (a, t) ∈ C.negotiator ∧ url = e.serverUrl ∧
      createAssociateRequest W priv e a t = .ok (s, m) ∧ body = m.toURLEncoded ∧
      ∀ response x, httpResponseToMessage W http = .ok response →
        extractAssociation W (E.seconds W) response s = .ok x → rest = [] ∧ r = .ok (some x) := by
  unfold negotiateAssociation at h
  cases hn : C.negotiator.getAllowedType with
  | none => rw [hn] at h; obtain ⟨rfl, rfl⟩ := h; simp at hevs
  | some p =>
    obtain ⟨a, t⟩ := p
    have hp : (a, t) ∈ C.negotiator := by
      rw [Negotiator.getAllowedType] at hn
      exact List.mem_of_mem_head? hn
    rw [hn] at h
    simp only at h
    rw [runs_handle] at h
    obtain ⟨e1, e2, o, hsplit, h1, h2⟩ := h
    subst hsplit
    have h1 := request_reply h1
    by_cases hsv : ∃ code m, o = .error (.server code m)
    · obtain ⟨code, m, rfl⟩ := hsv
      simp only at h2
      rw [runs_py_bind] at h2
      rcases h2 with ⟨sup, g1, g2⟩ | ⟨x, -, rfl, rfl⟩
      · cases sup with
        | none =>
          obtain ⟨rfl, rfl⟩ := g2
          rcases h1 with rfl | ⟨s, m', o, k1, rfl, k2⟩
          · simp at hevs
          · simp only [List.append_nil] at hevs
            cases pre with
            | nil =>
              simp at hevs
              obtain ⟨⟨rfl, rfl, rfl⟩, rfl⟩ := hevs
              exact ⟨_, a, t, s, m', .inl rfl, hp, rfl, k1, rfl, fun response x l1 l2 => by cases k2 _ _ _ rfl l1 l2⟩
            | cons => simp at hevs
        | some q =>
          obtain ⟨a', t'⟩ := q
          have hq : (a', t') ∈ C.negotiator := by
            unfold extractSupportedAssociationType at g1
            split at g1
            · simp at g1
            · obtain ⟨x, -, g1⟩ := bind_eq_ok.1 g1
              obtain ⟨y, -, g1⟩ := bind_eq_ok.1 g1
              split at g1
              · split at g1
                · next hal =>
                  simp at g1
                  obtain ⟨rfl, rfl⟩ := g1
                  unfold Negotiator.isAllowed at hal
                  simp at hal
                  exact hal.1
                · simp at g1
              · simp at g1
          simp only [retryAssociation] at g2
          rw [runs_handle] at g2
          obtain ⟨e3, e4, o2, rfl, k1, k2⟩ := g2
          have k1 := request_reply k1
          have he4 : e4 = [] := by split at k2 <;> exact k2.1
          subst he4
          have hr : ∀ x, o2 = .ok (some x) → r = .ok (some x) := by
            intro x hx
            subst hx
            simp only at k2
            exact k2.2.symm
          rcases k1 with rfl | ⟨s2, m2, o3, l1, rfl, l2⟩
          · rcases h1 with rfl | ⟨s, m', o, k1, rfl, k2⟩
            · simp at hevs
            · cases pre with
              | nil =>
                simp at hevs
                obtain ⟨⟨rfl, rfl, rfl⟩, rfl⟩ := hevs
                exact ⟨_, a, t, s, m', .inl rfl, hp, rfl, k1, rfl, fun response x l1 l2 => by cases k2 _ _ _ rfl l1 l2⟩
              | cons => simp at hevs
          · rcases h1 with rfl | ⟨s, m', o, k1, rfl, k2⟩
            · cases pre with
              | nil =>
                simp at hevs
                obtain ⟨⟨rfl, rfl, rfl⟩, rfl⟩ := hevs
                exact ⟨_, a', t', s2, m2, .inr rfl, hq, rfl, l1, rfl, fun response x j1 j2 => ⟨rfl, hr _ (l2 _ _ _ rfl j1 j2)⟩⟩
              | cons => simp at hevs
            · cases pre with
              | nil =>
                simp at hevs
                obtain ⟨⟨rfl, rfl, rfl⟩, rfl⟩ := hevs
                exact ⟨_, a, t, s, m', .inl rfl, hp, rfl, k1, rfl, fun response x l1 l2 => by cases k2 _ _ _ rfl l1 l2⟩
              | cons y pre' =>
                cases pre' with
                | nil =>
                  simp at hevs
                  obtain ⟨-, ⟨rfl, rfl, rfl⟩, rfl⟩ := hevs
                  exact ⟨_, a', t', s2, m2, .inr rfl, hq, rfl, l1, rfl, fun response x j1 j2 => ⟨rfl, hr _ (l2 _ _ _ rfl j1 j2)⟩⟩
                | cons => simp at hevs
      · rcases h1 with rfl | ⟨s, m', o, k1, rfl, k2⟩
        · simp at hevs
        · cases pre with
          | nil =>
            simp at hevs
            obtain ⟨⟨rfl, rfl, rfl⟩, rfl⟩ := hevs
            exact ⟨_, a, t, s, m', .inl rfl, hp, rfl, k1, rfl, fun response x l1 l2 => by cases k2 _ _ _ rfl l1 l2⟩
          | cons => simp at hevs
    · have hh : e2 = [] ∧ o = r := by
        split at h2
        · exact absurd ⟨_, _, rfl⟩ hsv
        · exact h2
      obtain ⟨rfl, rfl⟩ := hh
      rcases h1 with rfl | ⟨s, m', o, k1, rfl, k2⟩
      · simp at hevs
      · cases pre with
        | nil =>
          simp at hevs
          obtain ⟨⟨rfl, rfl, rfl⟩, rfl⟩ := hevs
          exact ⟨_, a, t, s, m', .inl rfl, hp, rfl, k1, rfl, fun response x l1 l2 => ⟨rfl, k2 _ _ _ rfl l1 l2⟩⟩
        | cons => simp at hevs

/-- a request while an authentication request is started -/
theorem begin_reply {W : World} {C : Conf} {E : Consumer.Env} {u : UserSession} {e : Endpoint} {anonymous : Bool}
    {pre rest : List Ev} {url body : Str} {http : Http} {r : Except Err (UserSession × Except Err AuthRequest)}
    (h : Runs (beginWithoutDiscovery W C E u e anonymous) (pre ++ .post url body (.ok http) :: rest) r) :
    ∃ priv a t s m, (priv = E.priv1 ∨ priv = E.priv2) ∧ (a, t) ∈ C.negotiator ∧ url = e.serverUrl ∧
      createAssociateRequest W priv e a t = .ok (s, m) ∧ body = m.toURLEncoded ∧
      ∀ response x, httpResponseToMessage W http = .ok response →
        extractAssociation W (E.seconds W) response s = .ok x →
        ∃ out, rest = [.store (.storeAssociation e.serverUrl x) out] := by
  have hns : ∀ {evs : List Ev} {r : Except Err (Option Assoc)} {pre rest : List Ev}, Runs (negotiateAndStore W C E e) evs r →
      evs = pre ++ .post url body (.ok http) :: rest → ∃ priv a t s m, (priv = E.priv1 ∨ priv = E.priv2) ∧
      (a, t) ∈ C.negotiator ∧ url = e.serverUrl ∧ createAssociateRequest W priv e a t = .ok (s, m) ∧ body = m.toURLEncoded ∧
      ∀ response x, httpResponseToMessage W http = .ok response →
        extractAssociation W (E.seconds W) response s = .ok x →
        ∃ out, rest = [.store (.storeAssociation e.serverUrl x) out] := by
    intro evs r pre rest h hevs
    rw [negotiateAndStore, runs_bind] at h
    rcases h with ⟨e3, e4, a', hs, h3, h4⟩ | ⟨x, rfl, h3⟩
    · have he4 : e4 = [] ∧ a' = none ∨ ∃ x o, a' = some x ∧ e4 = [.store (.storeAssociation e.serverUrl x) o] := by
        cases a' with
        | none => exact .inl ⟨h4.1, rfl⟩
        | some x =>
          simp only at h4
          rw [runs_bind] at h4
          right
          rcases h4 with ⟨e5, e6, _, rfl, h5, rfl, -⟩ | ⟨y, -, h5⟩
          · obtain ⟨o, rfl⟩ := runs_putAssoc h5; exact ⟨x, o, rfl, by simp⟩
          · obtain ⟨o, rfl⟩ := runs_putAssoc h5; exact ⟨x, o, rfl, rfl⟩
      have hin : ∃ rest', e3 = pre ++ .post url body (.ok http) :: rest' ∧ rest = rest' ++ e4 := by
        rw [hevs] at hs
        rcases List.append_eq_append_iff.1 hs with ⟨l, hl1, hl2⟩ | ⟨l, hl1, hl2⟩
        · cases l with
          | nil =>
            exfalso
            simp at hl2
            rcases he4 with ⟨rfl, -⟩ | ⟨x, o, -, rfl⟩ <;> simp at hl2
          | cons y l =>
            simp at hl2
            exact ⟨l, by rw [hl1, ← hl2.1], hl2.2⟩
        · exfalso
          rcases he4 with ⟨rfl, -⟩ | ⟨x, o, -, rfl⟩
          · simp at hl2
          · cases l with
            | nil => simp at hl2
            | cons y l => simp at hl2
      obtain ⟨rest', hr1, rfl⟩ := hin
      obtain ⟨priv, a, t, s, m, k1, k2, k3, k4, k5, k6⟩ := negotiate_reply h3 hr1
      refine ⟨priv, a, t, s, m, k1, k2, k3, k4, k5, fun response x j1 j2 => ?_⟩
      obtain ⟨rfl, hx⟩ := k6 response x j1 j2
      simp at hx
      subst hx
      rcases he4 with ⟨-, hc⟩ | ⟨x', o, hc, rfl⟩
      · cases hc
      · simp at hc; subst hc; exact ⟨o, rfl⟩
    · obtain ⟨priv, a, t, s, m, k1, k2, k3, k4, k5, k6⟩ := negotiate_reply h3 hevs
      exact ⟨priv, a, t, s, m, k1, k2, k3, k4, k5, fun response x' j1 j2 => by cases (k6 response x' j1 j2).2⟩
  rw [beginWithoutDiscovery, runs_handle] at h
  obtain ⟨e1, e2, o, hs, h1, h2⟩ := h
  have : e2 = [] := by split at h2 <;> exact h2.1
  subst this
  rw [List.append_nil] at hs
  subst hs
  rw [genericBegin, runs_bind] at h1
  have ha : ∀ {r}, Runs (associationFor W C E e) (pre ++ .post url body (.ok http) :: rest) r →
      ∃ priv a t s m, (priv = E.priv1 ∨ priv = E.priv2) ∧
      (a, t) ∈ C.negotiator ∧ url = e.serverUrl ∧ createAssociateRequest W priv e a t = .ok (s, m) ∧ body = m.toURLEncoded ∧
      ∀ response x, httpResponseToMessage W http = .ok response →
        extractAssociation W (E.seconds W) response s = .ok x →
        ∃ out, rest = [.store (.storeAssociation e.serverUrl x) out] := by
    intro r h
    unfold associationFor at h
    split at h
    · rw [Consumer.getAssociation, runs_bind] at h
      rcases h with ⟨e3, e4, a, hs, h3, h4⟩ | ⟨x, rfl, h3⟩
      · obtain ⟨o, rfl⟩ := runs_fetchAssoc h3
        cases pre with
        | nil => simp at hs
        | cons y pre' =>
          simp only [List.cons_append, List.nil_append, List.cons.injEq] at hs
          obtain ⟨rfl, hs⟩ := hs
          split at h4
          · obtain ⟨rfl, -⟩ := h4; simp at hs
          · exact hns h4 hs.symm
      · obtain ⟨o, hs⟩ := runs_fetchAssoc h3
        cases pre with
        | nil => simp at hs
        | cons y pre' => simp at hs
    · have := h.1; simp at this
  rcases h1 with ⟨e1, e2, a, hs, h1, h2⟩ | ⟨x, rfl, h1⟩
  · have : e2 = [] := by
      rw [runs_py_bind] at h2
      rcases h2 with ⟨_, -, rfl, -⟩ | ⟨_, -, -, rfl⟩ <;> rfl
    subst this
    rw [List.append_nil] at hs
    subst hs
    exact ha h1
  · exact ha h1

/-! ## The reply -/

theorem v1_exactly {m : Msg} {oid : Str} {d : Str → Option Str} (h : Server.Exactly m oid d) :
    m.isOpenID1 = OPENID1_NAMESPACES.contains oid := by
  rw [Msg.isOpenID1, h.ns]

theorem getArgReq_exactly {m : Msg} {oid k v : Str} {d : Str → Option Str} (h : Server.Exactly m oid d) (hk : d k = some v) :
    m.getArgReq .openid k = .ok v := by
  rw [getArgReq_ok, h.getArg, hk]

theorem getArg_uri_exactly {m : Msg} {oid k : Str} {d : Str → Option Str} (h : Server.Exactly m oid d)
    (ho : oid ≠ t!"sreg") : m.getArg (.uri oid) k = .ok (d k) := by
  simp [Msg.getArg, Msg.fixNS, ho, h.here]

/-- a reply that has everything -/
theorem extract_exactly {W : World} {now : Int} {response : Msg} {oid a t handle : Str} {d : Str → Option Str} {s : Session}
    {secret : Bytes} (h : Server.Exactly response oid d) (ho : oid = OPENID1_NS ∨ oid = OPENID2_NS)
    (h1 : d t!"assoc_type" = some a) (h2 : d t!"assoc_handle" = some handle) (h3 : d t!"expires_in" = some t!"1209600")
    (h4 : d t!"session_type" = if s = .plain ∧ oid = OPENID1_NS then none else some s.sessionType)
    (ht : s.sessionType = t) (hfit : SessionFits t a) (h5 : s.extractSecret W response = .ok secret) :
    extractAssociation W now response s = .ok ⟨handle, secret, now, 1209600, a⟩ := by
  have hst : replySessionType response = .ok t := by
    rcases ho with rfl | rfl
    · rw [replySessionType, v1_exactly h, if_pos (by decide), getOpenID1SessionType, getArg_uri_exactly h (by decide), h4]
      simp only [ok_bind]
      by_cases hp : s = .plain
      · subst hp
        simp only [true_and, if_pos]
        rw [← ht]; rfl
      · simp only [hp, false_and, if_false, ht]
        have : t ≠ [] := by rw [← ht]; rcases s with _ | ⟨_ | _, _⟩ <;> simp [Session.sessionType]
        simp [this]
    · rw [replySessionType, v1_exactly h, if_neg (by decide)]
      have hget := getArg_uri_exactly (k := t!"session_type") h (by decide)
      rw [h4, if_neg (fun e => absurd e.2 (by decide)), ht] at hget
      simp only [Msg.getArgReq, Msg.getArg] at hget ⊢
      obtain ⟨n, hn, hget⟩ := bind_eq_ok.1 hget
      rw [hn]
      simp at hget
      simp [hget]
  have hint : parseInt W.digits t!"1209600" = .ok 1209600 := by
    have hs : strip t!"1209600" = t!"1209600" := by decide
    rw [parseInt, hs]
    rfl
  have hal : s.allowedAssocTypes.contains a = true := by
    rw [allowed_eq, ht]
    simpa using fits_iff.2 hfit
  have ha : allAssociationTypes.contains a = true := by
    rcases hfit with ⟨-, rfl | rfl⟩ | ⟨-, rfl⟩ | ⟨-, rfl⟩ <;> decide
  have hsf : sessionFor response s t = .ok s := by rw [sessionFor, if_pos ht]
  rw [extractAssociation, getArgReq_exactly h h1, getArgReq_exactly h h2, getArgReq_exactly h h3]
  simp only [ok_bind, hint, asProtocolError, hst, hsf, hal, if_pos, h5, Assoc.fromExpiresIn, Assoc.new, ha]

end Props
