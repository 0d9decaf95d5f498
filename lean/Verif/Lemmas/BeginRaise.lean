import Verif.Lemmas.ConsumerRaise
import Verif.Lemmas.ConsumerAssociate
import Verif.Lemmas.ServerCodec
import Verif.Props.Cryptutil
/-! # What the parts of a beginning raise -/

namespace Consumer
open Py Message Association Cryptutil Store Discover Spec DH

/-- what can go wrong with the library and the configuration -/
inductive Broken (W : World) (t : Str) : PyErr → Prop where
  | kind : t ∉ [t!"DH-SHA256", t!"DH-SHA1", t!"no-encryption"] → Broken W t .keyError
  | library (p g : Nat) : base64ToLong DH.defaultModulus = .ok p → base64ToLong DH.defaultGenerator = .ok g →
      W.lib.okParams p g = false → Broken W t .valueError
  | shared (p z : Nat) : W.lib.sharedBytes p z = [] → Broken W t .indexError

theorem defaults_error {W : World} {t : Str} {priv : Nat} {e : PyErr} (h : DiffieHellman.fromDefaults W.lib priv = .error e) :
    Broken W t e := by
  have hp : ∃ p, base64ToLong defaultModulus = .ok p := by
    have : (base64ToLong defaultModulus).isOk = true := by decide +kernel
    revert this
    cases base64ToLong defaultModulus with
    | ok p => intro _; exact ⟨p, rfl⟩
    | error e => intro h; cases h
  have hg : ∃ p, base64ToLong defaultGenerator = .ok p := by
    have : (base64ToLong defaultGenerator).isOk = true := by decide +kernel
    revert this
    cases base64ToLong defaultGenerator with
    | ok p => intro _; exact ⟨p, rfl⟩
    | error e => intro h; cases h
  obtain ⟨p, hp⟩ := hp
  obtain ⟨g, hg⟩ := hg
  rw [DiffieHellman.fromDefaults, DiffieHellman.new, hp, hg] at h
  simp only [ok_bind] at h
  split at h
  · cases h
  · next hk =>
    simp only [throw_eq_error, Except.error.injEq] at h
    subst h
    exact .library p g hp hg (by simpa using hk)

theorem session_new_error {W : World} {priv : Nat} {t : Str} {e : PyErr} (h : Session.new W.lib priv t = .error e) :
    Broken W t e := by
  unfold Session.new at h
  split at h
  · rcases bind_eq_error.1 h with h | ⟨_, -, h⟩
    · exact defaults_error h
    · simp at h
  · split at h
    · rcases bind_eq_error.1 h with h | ⟨_, -, h⟩
      · exact defaults_error h
      · simp at h
    · split at h
      · cases h
      · simp only [Except.error.injEq] at h
        subst h
        exact .kind (by simp_all)

theorem createRequest_error {W : World} {priv : Nat} {e : Endpoint} {a t : Str} {x : PyErr}
    (h : createAssociateRequest W priv e a t = .error x) : Broken W t x := by
  rw [createAssociateRequest] at h
  rcases bind_eq_error.1 h with h | ⟨s, h1, h⟩
  · exact session_new_error h
  · exfalso
    simp only at h
    have hx : ∃ extra, s.getRequest = .ok extra ∧ (extra = [] ∨ ∃ pub, extra = [(t!"dh_consumer_public", pub)]) := by
      cases s with
      | plain => exact ⟨_, rfl, .inl rfl⟩
      | dh b d =>
        obtain ⟨pub, hpub, -⟩ := Props.c04_long d.publicNumber
        have hu := defaults_using (session_dh h1)
        refine ⟨[(t!"dh_consumer_public", pub)], ?_, .inr ⟨pub, rfl⟩⟩
        rw [Session.getRequest, DiffieHellman.publicKey, hpub, hu]
        rfl
    obtain ⟨extra, hx, hk⟩ := hx
    rw [hx, ok_bind] at h
    rcases bind_eq_error.1 h with h | ⟨_, -, h⟩
    · have key : ∀ A : Dict Str Str, Dict.WF A → fromOpenIDArgs W.reg A = .error x →
          (∀ k ∈ Dict.keys A, '.' ∉ k) → (∀ u, A.get? t!"ns" = some u → u = OPENID2_NS) → False := by
        intro A hw h hd hn
        rcases fromOpenIDArgs_error hw h with ⟨-, u, h1, h2⟩ | ⟨-, -, k, h1, h2⟩
        · rw [hn u h1] at h2; revert h2; decide
        · exact hd k h1 h2
      generalize e.compatibilityMode = c at h
      generalize s.sessionType = st at h
      refine key _ ?_ h ?_ ?_
      · rcases hk with rfl | ⟨pub, rfl⟩ <;> cases c <;> by_cases hst : st = t!"no-encryption" <;>
          simp [Dict.set, Dict.update, Dict.WF, Dict.keys, hst]
      · rcases hk with rfl | ⟨pub, rfl⟩ <;> cases c <;> by_cases hst : st = t!"no-encryption" <;>
          simp [Dict.set, Dict.update, Dict.keys, hst]
      · rcases hk with rfl | ⟨pub, rfl⟩ <;> cases c <;> by_cases hst : st = t!"no-encryption" <;>
          simp [Dict.set, Dict.update, Dict.get?, hst]
    · simp at h

/-! ## Replies -/

theorem getArgReq_error {m : Msg} {k : Str} {o : Option Str} (hg : m.getArg .openid k = .ok o) {e : PyErr}
    (h : m.getArgReq .openid k = .error e) : e = .keyError := by
  rw [Msg.getArg] at hg
  rw [Msg.getArgReq] at h
  obtain ⟨n, hn, -⟩ := bind_eq_ok.1 hg
  rw [hn, ok_bind] at h
  split at h
  · simp at h
  · simpa using h.symm

theorem getArgReq_uri_error {m : Msg} {u k : Str} {e : PyErr} (h : m.getArgReq (.uri u) k = .error e) : e = .keyError := by
  rw [Msg.getArgReq, Msg.fixNS] at h
  split at h
  · simp only [ok_bind, pure_eq_ok] at h
    split at h
    · simp at h
    · simpa using h.symm
  · simp only [ok_bind, pure_eq_ok] at h
    split at h
    · simp at h
    · simpa using h.symm

theorem asProtocolError_error {α : Type} {r : Except PyErr α} {e : PyErr} (h : asProtocolError r = .error e) :
    e = .protocolError ∨ (r = .error e ∧ e.isValueError = false) := by
  cases r with
  | ok a => simp [asProtocolError] at h
  | error x =>
    simp only [asProtocolError] at h
    split at h
    · simp at h; exact .inl h.symm
    · next hx =>
      simp only [Except.error.injEq] at h; subst h
      exact .inr ⟨rfl, by simpa using hx⟩

theorem secret_error {W : World} {s : Session} {m : Msg}
    (hget : ∀ k, '.' ∉ k → k ≠ t!"ns" → ∃ o, m.getArg .openid k = .ok o) {e : PyErr}
    (h : s.extractSecret W m = .error e) (hv : e.isValueError = false) :
    e = .keyError ∨ (e = .indexError ∧ ∃ p z, W.lib.sharedBytes p z = []) := by
  have hb : ∀ b e, Base64.decode b = .error e → e = .valueError := fun b e h => Base64.decode_error _ _ h
  cases s with
  | plain =>
    rw [Session.extractSecret] at h
    rcases bind_eq_error.1 h with h | ⟨k, -, h⟩
    · exact .inl (getArgReq_error (hget _ (by decide) (by decide)).choose_spec h)
    · rw [hb _ _ h] at hv; cases hv
  | dh b d =>
    rw [Session.extractSecret] at h
    rcases bind_eq_error.1 h with h | ⟨pub, -, h⟩
    · exact .inl (getArgReq_error (hget _ (by decide) (by decide)).choose_spec h)
    rcases bind_eq_error.1 h with h | ⟨enc, -, h⟩
    · exact .inl (getArgReq_error (hget _ (by decide) (by decide)).choose_spec h)
    rcases bind_eq_error.1 h with h | ⟨_, -, h⟩
    · rw [Server.base64ToLong_error h] at hv; cases hv
    rcases bind_eq_error.1 h with h | ⟨_, -, h⟩
    · rw [hb _ _ h] at hv; cases hv
    rcases bind_eq_error.1 h with h | ⟨_, -, h⟩
    · rw [DiffieHellman.xorSecret] at h
      rcases bind_eq_error.1 h with h | ⟨sh, h1, h⟩
      · rw [DiffieHellman.getSharedSecret] at h
        rcases bind_eq_error.1 h with h | ⟨y, -, h⟩
        · rw [Server.base64ToLong_error h] at hv; cases hv
        · split at h
          · simp at h
          · simp at h; subst h; cases hv
      · rcases bind_eq_error.1 h with h | ⟨_, -, h⟩
        · cases sh with
          | cons c r => simp [fixBtwoc] at h; split at h <;> cases h
          | nil =>
            simp [fixBtwoc] at h
            refine .inr ⟨h.symm, ?_⟩
            rw [DiffieHellman.getSharedSecret] at h1
            obtain ⟨y, -, h1⟩ := bind_eq_ok.1 h1
            split at h1
            · simp at h1; exact ⟨_, _, h1⟩
            · simp at h1
        · rcases bind_eq_error.1 h with h | ⟨_, -, h⟩
          · rw [hb _ _ h] at hv; cases hv
          · rcases bind_eq_error.1 h with h | ⟨_, -, h⟩
            · rw [strxor] at h
              split at h
              · simp at h; subst h; cases hv
              · simp at h
            · simp at h
    · rw [hb _ _ h] at hv; cases hv

theorem extract_error {W : World} {now : Int} {m : Msg} {s : Session}
    (hget : ∀ k, '.' ∉ k → k ≠ t!"ns" → ∃ o, m.getArg .openid k = .ok o) {e : PyErr}
    (h : extractAssociation W now m s = .error e) :
    (e.isKeyError || isProtocolError (.py e)) = true ∨ (e = .indexError ∧ ∃ p z, W.lib.sharedBytes p z = []) := by
  have hreq : ∀ k e, '.' ∉ k → k ≠ t!"ns" → m.getArgReq .openid k = .error e → e = .keyError :=
    fun k e a b h => getArgReq_error (hget k a b).choose_spec h
  rw [extractAssociation] at h
  rcases bind_eq_error.1 h with h | ⟨at', -, h⟩
  · rw [hreq _ _ (by decide) (by decide) h]; exact .inl rfl
  rcases bind_eq_error.1 h with h | ⟨_, -, h⟩
  · rw [hreq _ _ (by decide) (by decide) h]; exact .inl rfl
  rcases bind_eq_error.1 h with h | ⟨_, -, h⟩
  · rw [hreq _ _ (by decide) (by decide) h]; exact .inl rfl
  rcases bind_eq_error.1 h with h | ⟨_, -, h⟩
  · rcases asProtocolError_error h with rfl | ⟨h, hv⟩
    · exact .inl rfl
    · rw [parseInt_error _ _ _ h] at hv; cases hv
  rcases bind_eq_error.1 h with h | ⟨st, -, h⟩
  · rw [replySessionType] at h
    split at h
    · exfalso
      rw [getOpenID1SessionType, Msg.getArg, Msg.fixNS, if_neg (by decide)] at h
      simp only [ok_bind, pure_eq_ok] at h
      split at h <;> cases h
    · rw [getArgReq_uri_error h]; exact .inl rfl
  rcases bind_eq_error.1 h with h | ⟨s', -, h⟩
  · rw [sessionFor] at h
    split at h
    · cases h
    · split at h
      · cases h
      · cases h; exact .inl rfl
  split at h
  · next ha =>
    rcases bind_eq_error.1 h with h | ⟨_, -, h⟩
    · rcases asProtocolError_error h with rfl | ⟨h, hv⟩
      · exact .inl rfl
      · rcases secret_error hget h hv with rfl | hx
        · exact .inl rfl
        · exact .inr hx
    · exfalso
      rw [Assoc.fromExpiresIn, Assoc.new] at h
      split at h
      · cases h
      · next hn =>
        apply hn
        rcases s' with _ | ⟨_ | _, _⟩ <;> simp [Session.allowedAssocTypes] at ha <;> simp [allAssociationTypes, ha]
        rcases ha with rfl | rfl <;> simp
  · cases h; exact .inl rfl

/-! ## Negotiation -/

/-- an exception of a request that is not caught on the way -/
def AskError (W : World) (t : Str) (evs : List Ev) (x : Err) : Prop :=
  (∃ c m, x = .server c m ∧ ∀ k, '.' ∉ k → k ≠ t!"ns" → ∃ o, m.getArg .openid k = .ok o) ∨
  ∃ e, x = .py e ∧ (Broken W t e ∨ Outside W.reg evs e)

theorem request_error {W : World} {E : Env} {priv : Nat} {e : Endpoint} {a t : Str} {evs : List Ev} {x : Err}
    (h : Runs (requestAssociation W E priv e a t) evs (.error x)) : AskError W t evs x := by
  rw [requestAssociation, runs_py_bind] at h
  rcases h with ⟨⟨s, m⟩, h1, h2⟩ | ⟨x, h1, h2, rfl⟩
  · simp only at h2
    rw [runs_handle] at h2
    obtain ⟨e1, e2, o, rfl, h3, h4⟩ := h2
    obtain ⟨o', rfl, h5⟩ := runs_makeKVPost.1 h3
    rcases h5 with ⟨http, rfl, h5⟩ | ⟨er, rfl, rfl⟩
    · subst h5
      cases hr : httpResponseToMessage W http with
      | ok response =>
        rw [hr] at h4
        simp only [runs_done] at h4
        obtain ⟨-, text, d, -, -, hw, hm⟩ := http_ok hr
        have hget := (fromOpenIDArgs_has hw hm).2
        cases hx : extractAssociation W (E.seconds W) response s with
        | ok r => rw [hx] at h4; simp [noAssociation] at h4
        | error y =>
          rw [hx] at h4
          rcases extract_error (fun k a b => ⟨_, hget k a b⟩) hx with hk | ⟨rfl, p, z, hz⟩
          · simp [noAssociation, hk] at h4
          · simp [noAssociation, isProtocolError, PyErr.isKeyError] at h4
            exact .inr ⟨_, h4.2.symm, .inl (.shared p z hz)⟩
      | error y =>
        rw [hr] at h4
        rcases http_error hr with rfl | ⟨c, m', rfl, hm'⟩ | ⟨e', rfl, hb⟩
        · simp at h4
        · simp at h4; exact .inl ⟨_, _, h4.2.symm, hm'⟩
        · split at h4
          · simp_all
          · simp at h4
          · next hz =>
            simp only [Except.error.injEq] at hz
            simp only [runs_raise, Except.error.injEq] at h4
            exact .inr ⟨e', by rw [← h4.2, ← hz], .inr (.reply _ _ http e' (.head _) hb)⟩
    · split at h4
      · simp_all
      · simp at h4
      · next hne hz =>
        simp only [Except.error.injEq] at hz
        simp only [runs_raise, Except.error.injEq] at h4
        refine .inr ⟨er, by rw [← h4.2, ← hz], .inr (.fetch _ _ er (.head _) ?_)⟩
        rintro rfl
        exact hne hz.symm
  · cases h2
    exact .inr ⟨x, rfl, .inl (createRequest_error h1)⟩

theorem retry_error {W : World} {E : Env} {e : Endpoint} {o : Option (Str × Str)} {evs : List Ev} {x : Err}
    (hk : ∀ a t, o = some (a, t) → t ∈ [t!"DH-SHA256", t!"DH-SHA1", t!"no-encryption"])
    (h : Runs (retryAssociation W E e o) evs (.error x)) :
    ∃ t y, t ∈ [t!"DH-SHA256", t!"DH-SHA1", t!"no-encryption"] ∧ x = .py y ∧ (Broken W t y ∨ Outside W.reg evs y) := by
  rcases o with _ | ⟨a, t⟩
  · simp [retryAssociation] at h
  · rw [retryAssociation, runs_handle] at h
    obtain ⟨e1, e2, o, rfl, h1, h2⟩ := h
    cases o with
    | ok r => simp at h2
    | error y =>
      rcases request_error h1 with ⟨c, m, rfl, -⟩ | ⟨z, rfl, hz⟩
      · simp at h2
      · simp only [runs_done, Except.error.injEq] at h2
        exact ⟨t, z, hk a t rfl, h2.2.symm, hz.imp_right (·.mono fun _ => List.mem_append_left _)⟩

theorem negotiate_error {W : World} {C : Conf} {E : Env} {e : Endpoint} {evs : List Ev} {x : Err}
    (h : Runs (negotiateAssociation W C E e) evs (.error x)) :
    ∃ y, x = .py y ∧ ((C.negotiator = [] ∧ y = .assertionError) ∨ Outside W.reg evs y ∨
      (∃ t, (t ∈ [t!"DH-SHA256", t!"DH-SHA1", t!"no-encryption"] ∨ ∃ a r, C.negotiator = (a, t) :: r) ∧ Broken W t y)) := by
  unfold negotiateAssociation at h
  cases hn : C.negotiator.getAllowedType with
  | none =>
    rw [hn] at h
    simp only [runs_raise, Except.error.injEq] at h
    refine ⟨_, h.2.symm, .inl ⟨?_, rfl⟩⟩
    simpa [Negotiator.getAllowedType] using hn
  | some p =>
    obtain ⟨a, t⟩ := p
    have hneg : ∃ r, C.negotiator = (a, t) :: r := by
      rw [Negotiator.getAllowedType] at hn
      cases hc : C.negotiator with
      | nil => rw [hc] at hn; cases hn
      | cons q r => rw [hc] at hn; simp at hn; exact ⟨r, by rw [hn]⟩
    obtain ⟨rest, hneg⟩ := hneg
    rw [hn] at h
    simp only at h
    rw [runs_handle] at h
    obtain ⟨e1, e2, o, rfl, h1, h2⟩ := h
    cases o with
    | ok r => simp at h2
    | error z =>
      rcases request_error h1 with ⟨c, m, rfl, hget⟩ | ⟨z, rfl, hz⟩
      · simp only at h2
        rcases (runs_py_bind _ _ _ _).1 h2 with ⟨sup, g1, g2⟩ | ⟨y, g1, -⟩
        · have hk : ∀ a t, sup = some (a, t) → t ∈ [t!"DH-SHA256", t!"DH-SHA1", t!"no-encryption"] := by
            rintro a t rfl
            rw [extractSupportedAssociationType] at g1
            split at g1
            · cases g1
            · obtain ⟨o1, -, g1⟩ := bind_eq_ok.1 g1
              obtain ⟨o2, -, g1⟩ := bind_eq_ok.1 g1
              split at g1
              · split at g1
                · next hal =>
                  simp only [pure_eq_ok, Except.ok.injEq, Option.some.injEq, Prod.mk.injEq] at g1
                  obtain ⟨rfl, rfl⟩ := g1
                  simp only [Negotiator.isAllowed, Bool.and_eq_true, sessionTypeOk, getSessionTypes] at hal
                  have hal := hal.2
                  split at hal
                  · simp at hal ⊢; grind
                  · split at hal
                    · simp at hal ⊢; grind
                    · simp at hal
                · simp at g1
              · simp at g1
          obtain ⟨t', y, ht, rfl, hy⟩ := retry_error hk g2
          refine ⟨y, rfl, ?_⟩
          rcases hy with hy | hy
          · exact .inr (.inr ⟨t', .inl ht, hy⟩)
          · exact .inr (.inl (hy.mono (by simp_all)))
        · exfalso
          rw [extractSupportedAssociationType] at g1
          split at g1
          · cases g1
          · obtain ⟨o1, k1⟩ := hget t!"assoc_type" (by decide) (by decide)
            obtain ⟨o2, k2⟩ := hget t!"session_type" (by decide) (by decide)
            rw [k1, ok_bind, k2, ok_bind] at g1
            split at g1
            · split at g1 <;> cases g1
            · cases g1
      · simp only [runs_done, Except.error.injEq] at h2
        refine ⟨z, h2.2.symm, ?_⟩
        rcases hz with hz | hz
        · exact .inr (.inr ⟨t, .inr ⟨a, rest, hneg⟩, hz⟩)
        · exact .inr (.inl (hz.mono fun _ => List.mem_append_left _))

theorem association_error {W : World} {C : Conf} {E : Env} {e : Endpoint} {evs : List Ev} {x : Err} {anonymous : Bool}
    {token : Option Endpoint} (h : Runs (associationFor W C E e) evs (.error x)) :
    ∃ y, x = .py y ∧ NotBegun W C anonymous token evs y := by
  rw [associationFor] at h
  split at h
  · next hs =>
    rw [getAssociation] at h
    rcases (runs_bind _ _ _ _).1 h with ⟨e1, e2, a, rfl, -, h⟩ | ⟨y, hy, h⟩
    · split at h
      · simp at h
      · rw [negotiateAndStore] at h
        rcases (runs_bind _ _ _ _).1 h with ⟨e3, e4, r, rfl, -, h⟩ | ⟨y, hy, h⟩
        · cases r with
          | none => simp at h
          | some b =>
            simp only at h
            rcases (runs_bind _ _ _ _).1 h with ⟨_, _, _, -, -, k⟩ | ⟨y, hy, h⟩
            · simp at k
            · cases hy
              obtain ⟨y, rfl, ho⟩ := putAssoc_error h
              exact ⟨y, rfl, .outside y (ho.mono (by simp_all))⟩
        · cases hy
          obtain ⟨y, rfl, hy⟩ := negotiate_error h
          refine ⟨y, rfl, ?_⟩
          rcases hy with ⟨h1, rfl⟩ | ho | ⟨t, ht, hb⟩
          · exact .noKind hs h1
          · exact .outside y (ho.mono (by simp_all))
          · cases hb with
            | kind hk =>
              rcases ht with ht | ⟨a, r, hr⟩
              · exact absurd ht hk
              · exact .kind a t r hs hr hk
            | library p g h1 h2 h3 => exact .library p g hs h1 h2 h3
            | shared p z h1 => exact .shared p z hs h1
    · cases hy
      obtain ⟨y, rfl, ho⟩ := fetchAssoc_error h
      exact ⟨y, rfl, .outside y ho⟩
  · simp at h

theorem newRequest_ok (e : Endpoint) (a : Option Assoc) : ∃ m, AuthRequest.new e a = .ok ⟨e, a, [], m, false⟩ ∧
    (m.isOpenID1 = true → OPENID_IDP_2_0_TYPE ∉ e.typeUris ∧ OPENID_2_0_TYPE ∉ e.typeUris) := by
  rw [AuthRequest.new, Endpoint.preferredNamespace]
  split
  · have : ∃ m, Msg.new (some OPENID2_NS) = .ok m ∧ m.isOpenID1 = false := ⟨_, rfl, by decide⟩
    obtain ⟨m, h1, h2⟩ := this
    exact ⟨m, by rw [h1]; rfl, by rw [h2]; simp⟩
  · next hn =>
    have : ∃ m, Msg.new (some OPENID1_NS) = .ok m := ⟨_, rfl⟩
    obtain ⟨m, h1⟩ := this
    exact ⟨m, by rw [h1]; rfl, fun _ => by simpa using hn⟩

theorem generic_begin_error {W : World} {C : Conf} {E : Env} {e : Endpoint} {evs : List Ev} {x : Err} {anonymous : Bool}
    {token : Option Endpoint} (h : Runs (genericBegin W C E e) evs (.error x)) :
    ∃ y, x = .py y ∧ NotBegun W C anonymous token evs y := by
  rw [genericBegin] at h
  rcases (runs_bind _ _ _ _).1 h with ⟨e1, e2, a, rfl, -, h⟩ | ⟨y, hy, h⟩
  · obtain ⟨m, hm, -⟩ := newRequest_ok e a
    rw [hm] at h
    rcases (runs_py_bind _ _ _ _).1 h with ⟨r, -, h⟩ | ⟨y, h1, -⟩
    · simp at h
    · cases h1
  · cases hy
    exact association_error h

theorem generic_begin_ok {W : World} {C : Conf} {E : Env} {e : Endpoint} {evs : List Ev} {r : AuthRequest}
    (h : Runs (genericBegin W C E e) evs (.ok r)) : r.endpoint = e ∧
    (r.message.isOpenID1 = true → OPENID_IDP_2_0_TYPE ∉ e.typeUris ∧ OPENID_2_0_TYPE ∉ e.typeUris) := by
  rw [genericBegin, runs_bind_ok] at h
  obtain ⟨e1, e2, a, rfl, -, h⟩ := h
  obtain ⟨m, hm, hv⟩ := newRequest_ok e a
  rw [hm] at h
  obtain ⟨r', h1, h⟩ := (runs_py_bind_ok _ _ _ _).1 h
  cases h1
  simp only [runs_pure, Except.ok.injEq] at h
  rw [← h.2]
  exact ⟨rfl, hv⟩

theorem without_error {W : World} {C : Conf} {E : Env} {s s' : UserSession} {e : Endpoint} {anonymous : Bool} {evs : List Ev}
    {x : Err} (h : Runs (beginWithoutDiscovery W C E s e anonymous) evs (.ok (s', .error x))) :
    ∃ y, x = .py y ∧ NotBegun W C anonymous s'.token evs y ∧ (s' = s ∨ (y = .protocolError ∧ s' = { s with token := some e })) := by
  rw [beginWithoutDiscovery, runs_handle] at h
  obtain ⟨e1, e2, o, rfl, h1, h2⟩ := h
  cases o with
  | error z =>
    simp only [runs_pure, Except.ok.injEq, Prod.mk.injEq, Except.error.injEq] at h2
    obtain ⟨rfl, rfl, rfl⟩ := h2
    obtain ⟨y, rfl, hy⟩ := generic_begin_error (anonymous := anonymous) (token := s.token) h1
    exact ⟨y, rfl, by simpa using hy, .inl rfl⟩
  | ok r =>
    simp only [runs_pure, Except.ok.injEq, Prod.mk.injEq] at h2
    obtain ⟨rfl, rfl, h2⟩ := h2
    obtain ⟨he, hv⟩ := generic_begin_ok h1
    rw [anonymousOr, AuthRequest.setAnonymous] at h2
    split at h2
    · cases h2
    · next y hy =>
      split at hy
      · next hc =>
        cases hy
        simp [PyErr.isValueError] at h2
        simp only [Bool.and_eq_true] at hc
        exact ⟨_, h2.symm, .anonymous e hc.1 (by rw [he]) (hv hc.2).1 (hv hc.2).2, .inr ⟨rfl, by rw [he]⟩⟩
      · cases hy

theorem after_ok {s : Option (Manager.Manager Endpoint)} {url yu : Str} {l : List Endpoint}
    (h : Manager.beforeDiscovery s url = none) : ∃ e m, Manager.afterDiscovery s url yu l = .ok (e, m) ∧ (e = none → l = []) := by
  have hd : Manager.truthyOpt (Manager.getManager (Manager.dropEmpty s url) url false) = false := by
    rw [Manager.beforeDiscovery] at h
    rw [Manager.dropEmpty]
    cases hg : Manager.getManager s url false with
    | none => simp [hg, Manager.truthyOpt]
    | some m =>
      rw [hg] at h
      simp only at h
      split at h
      · cases h
      · next ht =>
        have : Manager.destroyManager s url false = none := by rw [Manager.destroyManager, hg]; rfl
        simp only [ht, this]
        rfl
  rw [Manager.afterDiscovery, Manager.createManager, hd]
  cases l with
  | nil => exact ⟨_, _, rfl, fun _ => rfl⟩
  | cons a r => exact ⟨_, _, rfl, fun h => by cases h⟩

theorem before_some {s : Option (Manager.Manager Endpoint)} {url : Str} {e : Option Endpoint}
    {m : Option (Manager.Manager Endpoint)} (h : Manager.beforeDiscovery s url = some (e, m)) : e ≠ none := by
  rw [Manager.beforeDiscovery] at h
  split at h
  · next mg _ =>
    split at h
    · next ht =>
      simp only [Option.some.injEq] at h
      rw [Manager.takeNext] at h
      cases hs : mg.services with
      | nil => simp [Manager.Manager.truthy, hs] at ht
      | cons a r => rw [hs] at h; simp at h; rw [← h.1]; simp
    · cases h
  · cases h

theorem begin_error {W : World} {C : Conf} {E : Env} {s s' : UserSession} {url : Str} {anonymous : Bool} {evs : List Ev}
    {x : Err} (h : Runs (begin W C E s url anonymous) evs (.ok (s', .error x))) :
    ∃ y, x = .py y ∧ NotBegun W C anonymous s'.token evs y ∧ (s'.token = s.token ∨ y = .protocolError) := by
  have hwith : ∀ (s1 : UserSession) (e : Endpoint) (evs' : List Ev), s1.token = s.token → (∀ x ∈ evs', x ∈ evs) →
      Runs (beginWithoutDiscovery W C E s1 e anonymous) evs' (.ok (s', .error x)) →
      ∃ y, x = .py y ∧ NotBegun W C anonymous s'.token evs y ∧ (s'.token = s.token ∨ y = .protocolError) := by
    intro s1 e evs' ht hsub h
    obtain ⟨y, hx, hy, hs⟩ := without_error h
    refine ⟨y, hx, ?_, ?_⟩
    · cases hy with
      | nothing id o h1 h2 => exact .nothing id o (hsub _ h1) h2
      | anonymous e h1 h2 h3 h4 => exact .anonymous e h1 h2 h3 h4
      | noKind h1 h2 => exact .noKind h1 h2
      | kind a t r h1 h2 h3 => exact .kind a t r h1 h2 h3
      | library p g h1 h2 h3 h4 => exact .library p g h1 h2 h3 h4
      | shared p z h1 h2 => exact .shared p z h1 h2
      | outside _ h1 => exact .outside _ (h1.mono hsub)
    · rcases hs with rfl | ⟨h1, -⟩
      · exact .inl ht
      · exact .inr h1
  rw [begin, runs_bind_ok] at h
  obtain ⟨e1, e2, ⟨s1, r⟩, hevs, h1, h2⟩ := h
  rw [getNextService] at h1
  cases hb : Manager.beforeDiscovery s.manager url with
  | some p =>
    obtain ⟨e, m⟩ := p
    rw [hb] at h1
    simp only [runs_pure, Except.ok.injEq, Prod.mk.injEq] at h1
    obtain ⟨rfl, rfl, rfl⟩ := h1
    cases e with
    | none => exact absurd rfl (before_some hb)
    | some e => exact hwith ⟨s.token, m⟩ e e2 rfl (by rw [hevs]; exact fun _ h => List.mem_append_right _ h) h2
  | none =>
    rw [hb] at h1
    simp only at h1
    rw [runs_handle] at h1
    obtain ⟨e3, e4, o, rfl, h3, h4⟩ := h1
    obtain ⟨o', rfl, h5⟩ := runs_discover.1 h3
    cases o' with
    | error y =>
      subst h5
      simp only [lift, runs_pure, Except.ok.injEq, Prod.mk.injEq] at h4
      obtain ⟨rfl, rfl, rfl⟩ := h4
      simp only [beginWith, runs_pure, Except.ok.injEq, Prod.mk.injEq, Except.error.injEq] at h2
      obtain ⟨rfl, rfl, rfl⟩ := h2
      by_cases hf : y = .fetchingError
      · subst hf
        exact ⟨.discoveryFailure, rfl, .nothing url _ (by rw [hevs]; exact .head _) (.inr (.inl rfl)), .inl rfl⟩
      · refine ⟨y, ?_, .outside y (.discovery url y (by simp [hevs])), .inl rfl⟩
        rw [fetchingAsFailure]
        simpa using hf
    | ok p =>
      obtain ⟨yu, l⟩ := p
      subst h5
      simp only [lift] at h4
      obtain ⟨e, m, ha, hl⟩ := after_ok (yu := yu) (l := l) hb
      rw [ha] at h4
      simp only [runs_pure, Except.ok.injEq, Prod.mk.injEq] at h4
      obtain ⟨rfl, rfl, rfl⟩ := h4
      cases e with
      | none =>
        simp only [beginWith, runs_pure, Except.ok.injEq, Prod.mk.injEq, Except.error.injEq] at h2
        obtain ⟨rfl, rfl, rfl⟩ := h2
        exact ⟨.discoveryFailure, rfl, .nothing url _ (by rw [hevs]; exact .head _) (.inr (.inr ⟨yu, by rw [hl rfl]⟩)), .inl rfl⟩
      | some e => exact hwith ⟨s.token, m⟩ e e2 rfl (by rw [hevs]; exact fun _ h => List.mem_append_right _ h) h2

end Consumer
