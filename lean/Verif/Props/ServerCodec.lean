import Verif.Lemmas.ServerCodec
import Verif.Props.ServerAuth
import Verif.Lemmas.MessageClash
/-! # C33-C36, C51, C52: requests, answers and their encodings -/

namespace Props
open Py Message Association Store Server Spec

/-! ## C34 -/

/-- **C34** Nothing at all is no request, and only that. -/
theorem c34_none (W : World) (E : Env) (op : Option Str) (q : Dict Str Str) :
    decode W E op q = .ok none ↔ q = [] := by
  unfold decode
  split
  · simp [*]
  · next h =>
    simp only [h, iff_false]
    intro hd
    obtain ⟨m, -, h1⟩ := bind_eq_ok.1 hd
    obtain ⟨mode, -, h2⟩ := bind_eq_ok.1 h1
    split at h2
    · simp at h2
    · simp at h2
    · obtain ⟨r, -, h3⟩ := bind_eq_ok.1 h2
      simp at h3

/-- **C34** The request is of the kind the mode names, and its message is the query. -/
theorem c34_kind (W : World) (E : Env) (op : Option Str) (q : Dict Str Str) (hq : Dict.WF q) (r : Request)
    (h : decode W E op q = .ok (some r)) :
    arg q t!"mode" = some r.mode ∧ fromPostArgs W.reg q = .ok r.message := by
  obtain ⟨m, mode, h1, h2, h3⟩ := (decode_cases hq).1 h
  have hP := parsed hq h1
  have hg := hP.get t!"mode" (by decide) (by decide)
  unfold dispatch at h3
  split at h3
  · next hm =>
    obtain ⟨c, h4, rfl⟩ := map_ok_iff.1 h3
    rw [CheckIDRequest.fromMessage, hg, h2] at h4
    simp only [lift, ok_bind] at h4
    split at h4
    · simp at h4
    · obtain ⟨_, -, h5⟩ := bind_eq_ok.1 h4
      split at h5
      · simp at h5
      · obtain ⟨_, -, h6⟩ := bind_eq_ok.1 h5
        obtain ⟨_, -, h7⟩ := bind_eq_ok.1 h6
        obtain ⟨_, -, h8⟩ := bind_eq_ok.1 h7
        split at h8
        · simp at h8
        · obtain ⟨_, -, h9⟩ := bind_eq_ok.1 h8
          have := (checkIDNew_ok (hP.v2.trans (not_congr hP.v1.symm))).1 h9
          rw [this.1]
          refine ⟨?_, h1⟩
          simp only [Request.mode, CheckIDRequest.mode, h2, Option.some.injEq]
          rcases hm with rfl | rfl <;> decide
  · split at h3
    · next hm =>
      obtain ⟨c, h4, rfl⟩ := map_ok_iff.1 h3
      refine ⟨by rw [h2, hm]; rfl, ?_⟩
      rw [CheckAuthRequest.fromMessage] at h4
      obtain ⟨_, -, h5⟩ := bind_eq_ok.1 h4
      obtain ⟨_, -, h6⟩ := bind_eq_ok.1 h5
      obtain ⟨_, -, h7⟩ := bind_eq_ok.1 h6
      split at h7
      · obtain ⟨_, -, h8⟩ := bind_eq_ok.1 h7
        simp only at h8
        split at h8 <;>
        · obtain ⟨_, -, h9⟩ := bind_eq_ok.1 h8
          simp only [pure_eq_ok, Except.ok.injEq] at h9
          rw [← h9]; exact h1
      · simp at h7
    · split at h3
      · next hm =>
        obtain ⟨c, h4, rfl⟩ := map_ok_iff.1 h3
        refine ⟨by rw [h2, hm]; rfl, ?_⟩
        rw [AssociateRequest.fromMessage] at h4
        obtain ⟨⟨st, ty⟩, -, h5⟩ := bind_eq_ok.1 h4
        simp only at h5
        split at h5
        · simp at h5
        · obtain ⟨_, -, h6⟩ := bind_eq_ok.1 h5
          split at h6
          · simp only [pure_eq_ok, Except.ok.injEq] at h6
            rw [← h6]; exact h1
          · simp at h6
      · simp at h3

/-- **C34** A checkid request comes out just when the query is as it should be, and then its fields are the arguments. -/
theorem c34_checkid (W : World) (E : Env) (op : Option Str) (q : Dict Str Str) (hq : Dict.WF q) (r : CheckIDRequest) :
    decode W E op q = .ok (some (.checkId r)) ↔
      CheckidQuery W.uni op q ∧ ∃ m, fromPostArgs W.reg q = .ok m ∧
        r = { message := m, identity := arg q t!"identity", claimedId := arg q t!"claimed_id",
              returnTo := arg q t!"return_to", trustRoot := realmOf q, assocHandle := arg q t!"assoc_handle",
              opEndpoint := op, immediate := arg q t!"mode" = some t!"checkid_immediate" } := by
  have horor : ∀ a b : Option Str, (given ((given a).or b)).or b = (given a).or b := by
    intro a b
    rcases a with _ | _ | _ <;> rcases b with _ | _ | _ <;> simp [given]
  have key : ∀ m mode, fromPostArgs W.reg q = .ok m → arg q t!"mode" = some mode →
      (dispatch W E op m mode = .ok (.checkId r) ↔ CheckidQuery W.uni op q ∧
        r = ⟨m, arg q t!"identity", arg q t!"claimed_id", arg q t!"return_to", realmOf q, arg q t!"assoc_handle", op,
          arg q t!"mode" = some t!"checkid_immediate"⟩) := by
    intro m mode h1 h2
    have hP := parsed hq h1
    have g := fun k h h' => hP.get k h h'
    unfold dispatch
    split
    · next hm =>
      rw [map_ok_iff]
      simp only [Request.checkId.injEq, exists_eq_right]
      rw [CheckIDRequest.fromMessage, g t!"mode" (by decide) (by decide), h2]
      simp only [lift, ok_bind]
      rw [if_neg (by rcases hm with rfl | rfl <;> simp), g t!"return_to" (by decide) (by decide)]
      simp only [lift, ok_bind]
      have hv1 := hP.v1
      have hreal : m.getArg .openid (if m.isOpenID1 = true then t!"trust_root" else t!"realm") =
          .ok (if IsV1 q then arg q t!"trust_root" else arg q t!"realm") := by
        by_cases h : m.isOpenID1 = true
        · rw [if_pos h, if_pos (hv1.1 h)]; exact g _ (by decide) (by decide)
        · rw [if_neg h, if_neg (fun e => h (hv1.2 e))]; exact g _ (by decide) (by decide)
      by_cases hA : (m.isOpenID1 && !truthy (arg q t!"return_to")) = true
      · rw [if_pos hA]
        simp only [Bool.and_eq_true, Bool.not_eq_true'] at hA
        simp only [throw_eq_error, reduceCtorEq, false_iff, not_and]
        intro hQ _
        obtain ⟨c, u, hcu⟩ := (hQ.v1 (hv1.1 hA.1)).2
        have := (truthy_iff (arg q t!"return_to")).2 ⟨c, u, hcu⟩
        rw [this] at hA; simp at hA
      · rw [if_neg hA, g t!"identity" (by decide) (by decide), g t!"claimed_id" (by decide) (by decide), hreal,
          g t!"assoc_handle" (by decide) (by decide)]
        simp only [lift, ok_bind, orElse_eq]
        have hro : (given (if IsV1 q then arg q t!"trust_root" else arg q t!"realm")).or (arg q t!"return_to") = realmOf q :=
          rfl
        rw [hro]
        split
        · next hB =>
          simp only [Bool.and_eq_true, Bool.not_eq_true', Option.isNone_iff_eq_none] at hB
          simp only [throw_eq_error, reduceCtorEq, false_iff, not_and]
          intro hQ _
          have : ¬ IsV1 q := by rw [← hv1]; simp [hB.1]
          obtain ⟨t, ht⟩ := (hQ.v2 this).2.2
          rw [hB.2.2] at ht; cases ht
        · next hB =>
          have hreq : (given (realmOf q)).or (arg q t!"return_to") = realmOf q := horor _ _
          rw [checkIDNew_ok (hP.v2.trans (not_congr hP.v1.symm)), hreq]
          simp only [Option.some.injEq]
          constructor
          · rintro ⟨hr, k1, k2, k3, k4⟩
            refine ⟨⟨?_, ?_, ?_, k3, k4⟩, hr⟩
            · rcases hm with rfl | rfl
              · exact .inl h2
              · exact .inr h2
            · intro hv
              refine ⟨Option.isSome_iff_exists.1 (k1 (hv1.2 hv)), ?_⟩
              simp only [Bool.and_eq_true, Bool.not_eq_true', hv1.2 hv, true_and, Bool.not_eq_false] at hA
              exact (truthy_iff _).1 hA
            · intro hv
              obtain ⟨k5, k6⟩ := k2 (fun e => hv (hv1.1 e))
              refine ⟨by simpa [Option.isSome_iff_exists] using k5, Option.isSome_iff_exists.1 k6, ?_⟩
              have h1' : m.isOpenID1 = false := by
                cases hh : m.isOpenID1 with
                | false => rfl
                | true => exact absurd (hv1.1 hh) hv
              simp only [h1', Bool.not_false, Bool.true_and, Bool.and_eq_true, Option.isNone_iff_eq_none, not_and] at hB
              cases hrt : arg q t!"return_to" with
              | none =>
                have := hB hrt
                exact Option.ne_none_iff_exists'.1 this
              | some u =>
                simp only [realmOf, hrt]
                cases given (if IsV1 q then arg q t!"trust_root" else arg q t!"realm") <;> simp
          · rintro ⟨hQ, hr⟩
            refine ⟨hr, ?_, ?_, hQ.url, hQ.realm⟩
            · intro hv; exact Option.isSome_iff_exists.2 (hQ.v1 (hv1.1 hv)).1
            · intro hv
              obtain ⟨k1, k2, -⟩ := hQ.v2 (fun e => hv (hv1.2 e))
              exact ⟨by simpa [Option.isSome_iff_exists] using k1, Option.isSome_iff_exists.2 k2⟩
    · next hm =>
      have hno : ¬ CheckidQuery W.uni op q := by
        intro hQ
        have := hQ.mode
        rw [h2] at this
        simp only [Option.some.injEq] at this
        exact hm this
      simp only [hno, false_and, iff_false]
      split
      · intro h; obtain ⟨_, -, h⟩ := map_ok_iff.1 h; cases h
      · split
        · intro h; obtain ⟨_, -, h⟩ := map_ok_iff.1 h; cases h
        · simp
  rw [decode_cases hq]
  constructor
  · rintro ⟨m, mode, h1, h2, h3⟩
    obtain ⟨k1, k2⟩ := (key m mode h1 h2).1 h3
    exact ⟨k1, m, h1, k2⟩
  · rintro ⟨hQ, m, h1, hr⟩
    obtain ⟨mode, h2⟩ : ∃ mode, arg q t!"mode" = some mode := by rcases hQ.mode with h | h <;> exact ⟨_, h⟩
    exact ⟨m, mode, h1, h2, (key m mode h1 h2).2 ⟨hQ, hr⟩⟩

/-- **C34** A check_authentication request comes out just when there are a handle and a signature. -/
theorem c34_checkauth (W : World) (E : Env) (op : Option Str) (q : Dict Str Str) (hq : Dict.WF q)
    (r : CheckAuthRequest) :
    decode W E op q = .ok (some (.checkAuth r)) ↔
      arg q t!"mode" = some t!"check_authentication" ∧ (∃ s, arg q t!"sig" = some s) ∧
      arg q t!"assoc_handle" = some r.assocHandle ∧ r.invalidateHandle = arg q t!"invalidate_handle" ∧
      fromPostArgs W.reg q = .ok r.message ∧ r.message.setArg .openid t!"mode" t!"id_res" = .ok r.signed := by
  have key : ∀ m mode, fromPostArgs W.reg q = .ok m → arg q t!"mode" = some mode →
      (dispatch W E op m mode = .ok (.checkAuth r) ↔ mode = t!"check_authentication" ∧ (∃ s, arg q t!"sig" = some s) ∧
        arg q t!"assoc_handle" = some r.assocHandle ∧ r.invalidateHandle = arg q t!"invalidate_handle" ∧
        r.message = m ∧ m.setArg .openid t!"mode" t!"id_res" = .ok r.signed) := by
    intro m mode h1 h2
    have hP := parsed hq h1
    have g := fun k h h' => hP.get k h h'
    obtain ⟨oid, ho⟩ := hP.ns
    unfold dispatch
    by_cases hm : mode = t!"check_authentication"
    · subst hm
      rw [if_neg (by decide), if_pos rfl, map_ok_iff]
      simp only [Request.checkAuth.injEq, exists_eq_right, true_and]
      rw [CheckAuthRequest.fromMessage, g t!"assoc_handle" (by decide) (by decide), g t!"sig" (by decide) (by decide),
        g t!"invalidate_handle" (by decide) (by decide)]
      simp only [lift, ok_bind]
      have hhas : m.hasKey .openid t!"mode" = .ok true := by
        have := g t!"mode" (by decide) (by decide)
        rw [h2] at this
        simp only [Msg.getArg, Msg.hasKey, Msg.fixNS, ho, ok_bind, pure_eq_ok, Except.ok.injEq, Dict.has] at this ⊢
        simp [this]
      obtain ⟨m', hm', -⟩ := setArg_ok m hP.inv .openid t!"mode" t!"id_res" (.uri oid) (by simp [Msg.fixNS, ho])
      cases hh : arg q t!"assoc_handle" with
      | none => simp
      | some hd =>
        cases hs : arg q t!"sig" with
        | none => simp
        | some sg =>
          simp only [hhas, if_true, hm', ok_bind, pure_eq_ok, Except.ok.injEq, Option.some.injEq]
          obtain ⟨a, b, c, d⟩ := r
          simp only [CheckAuthRequest.mk.injEq]
          constructor
          · rintro ⟨rfl, rfl, rfl, rfl⟩; simp
          · rintro ⟨-, rfl, rfl, rfl, rfl⟩; simp
    · simp only [hm, false_and, iff_false, if_false]
      split
      · intro h; obtain ⟨_, -, h⟩ := map_ok_iff.1 h; cases h
      · split
        · intro h; obtain ⟨_, -, h⟩ := map_ok_iff.1 h; cases h
        · simp
  rw [decode_cases hq]
  constructor
  · rintro ⟨m, mode, h1, h2, h3⟩
    obtain ⟨rfl, k2, k3, k4, rfl, k6⟩ := (key m mode h1 h2).1 h3
    exact ⟨h2, k2, k3, k4, h1, k6⟩
  · rintro ⟨h2, k2, k3, k4, h1, k6⟩
    exact ⟨_, _, h1, h2, (key _ _ h1 h2).2 ⟨rfl, k2, k3, k4, rfl, k6⟩⟩

/-- what a session is made of: nothing, or the Diffie-Hellman parameters and key in the query -/
def SessionMade (W : World) (E : Env) (q : Dict Str Str) (s : Session) : Prop :=
  s = .plain ∨ ∃ b modulus gen d k, s = .dh b d k ∧ ParamsAsked q modulus gen ∧
    DH.DiffieHellman.new W.lib modulus gen E.priv = .ok d ∧ arg q t!"dh_consumer_public" = some k ∧
    ∃ raw, Base64.decode k = .ok raw

theorem sessionFor_ok {W : World} {E : Env} {m : Msg} {q : Dict Str Str} (hP : Parsed m q) (ty : Str) (s : Session) :
    (∃ r, sessionFor W E m ty = some r ∧ sessionOrError m r = .ok s) ↔ s.sessionType = ty ∧ SessionMade W E q s := by
  have hoe : ∀ r, sessionOrError m r = .ok s ↔ r = .ok s := by
    intro r
    unfold sessionOrError
    split
    · simp
    · split <;> simp
    · simp
  simp only [hoe, exists_eq_right, SessionMade]
  unfold sessionFor
  have dh : ∀ b, some (dhSession W E b m) = some (.ok s) ↔ ∃ modulus gen d k, s = .dh b d k ∧ ParamsAsked q modulus gen ∧
      DH.DiffieHellman.new W.lib modulus gen E.priv = .ok d ∧ arg q t!"dh_consumer_public" = some k ∧
      ∃ raw, Base64.decode k = .ok raw := by
    intro b
    rw [Option.some.injEq]; exact dhSession_ok hP
  split
  · next h =>
    subst h
    simp only [Option.some.injEq, Except.ok.injEq]
    constructor
    · rintro rfl; exact ⟨rfl, .inl rfl⟩
    · rintro ⟨h, rfl | ⟨b, mo, ge, d, k, rfl, -⟩⟩
      · rfl
      · cases b <;> simp [Session.sessionType] at h
  · next h1 =>
    split
    · next h =>
      subst h
      rw [dh]
      constructor
      · rintro ⟨mo, ge, d, k, rfl, hr⟩; exact ⟨rfl, .inr ⟨_, mo, ge, d, k, rfl, hr⟩⟩
      · rintro ⟨h, rfl | ⟨b, mo, ge, d, k, rfl, hr⟩⟩
        · simp [Session.sessionType] at h
        · cases b
          · exact ⟨mo, ge, d, k, rfl, hr⟩
          · simp [Session.sessionType] at h
    · next h2 =>
      split
      · next h =>
        subst h
        rw [dh]
        constructor
        · rintro ⟨mo, ge, d, k, rfl, hr⟩; exact ⟨rfl, .inr ⟨_, mo, ge, d, k, rfl, hr⟩⟩
        · rintro ⟨h, rfl | ⟨b, mo, ge, d, k, rfl, hr⟩⟩
          · simp [Session.sessionType] at h
          · cases b
            · simp [Session.sessionType] at h
            · exact ⟨mo, ge, d, k, rfl, hr⟩
      · next h3 =>
        simp only [reduceCtorEq, false_iff]
        rintro ⟨h, rfl | ⟨b, mo, ge, d, k, rfl, hr⟩⟩
        · exact h1 h.symm
        · cases b
          · exact h2 h.symm
          · exact h3 h.symm

theorem allowed_iff (s : Session) (a : Str) : s.allowedAssocTypes.contains a = true ↔ SessionFits s.sessionType a := by
  rcases s with _ | ⟨_ | _, d, k⟩ <;> simp [Session.allowedAssocTypes, Session.sessionType, SessionFits]

/-- **C34** An associate request comes out just when the types asked for fit together and the session can be made. -/
theorem c34_associate (W : World) (E : Env) (op : Option Str) (q : Dict Str Str) (hq : Dict.WF q)
    (r : AssociateRequest) :
    decode W E op q = .ok (some (.associate r)) ↔
      arg q t!"mode" = some t!"associate" ∧ fromPostArgs W.reg q = .ok r.message ∧
      SessionAsked q r.session.sessionType r.assocType ∧ SessionFits r.session.sessionType r.assocType ∧
      SessionMade W E q r.session := by
  have key : ∀ m mode, fromPostArgs W.reg q = .ok m → arg q t!"mode" = some mode →
      (dispatch W E op m mode = .ok (.associate r) ↔ mode = t!"associate" ∧ r.message = m ∧
        SessionAsked q r.session.sessionType r.assocType ∧ SessionFits r.session.sessionType r.assocType ∧
        SessionMade W E q r.session) := by
    intro m mode h1 h2
    have hP := parsed hq h1
    unfold dispatch
    by_cases hm : mode = t!"associate"
    · subst hm
      rw [if_neg (by decide), if_neg (by decide), if_pos rfl, map_ok_iff]
      simp only [Request.associate.injEq, exists_eq_right, true_and]
      rw [AssociateRequest.fromMessage]
      constructor
      · intro h
        obtain ⟨⟨st, ty⟩, k1, k2⟩ := bind_eq_ok.1 h
        simp only at k2
        split at k2
        · simp at k2
        · next x hx =>
          obtain ⟨s, k3, k4⟩ := bind_eq_ok.1 k2
          split at k4
          · next ha =>
            simp only [pure_eq_ok, Except.ok.injEq] at k4
            subst k4
            obtain ⟨rfl, k5⟩ := (sessionFor_ok hP st s).1 ⟨x, hx, k3⟩
            exact ⟨rfl, (types_ok hP).1 k1, (allowed_iff s ty).1 ha, k5⟩
          · simp at k4
      · rintro ⟨rfl, k1, k2, k3⟩
        obtain ⟨x, hx, k4⟩ := (sessionFor_ok hP _ r.session).2 ⟨rfl, k3⟩
        rw [(types_ok hP).2 k1]
        simp only [ok_bind, hx, k4]
        rw [if_pos ((allowed_iff _ _).2 k2)]
        rfl
    · simp only [hm, false_and, iff_false, if_false]
      split
      · intro h; obtain ⟨_, -, h⟩ := map_ok_iff.1 h; cases h
      · split
        · intro h; obtain ⟨_, -, h⟩ := map_ok_iff.1 h; cases h
        · simp
  rw [decode_cases hq]
  constructor
  · rintro ⟨m, mode, h1, h2, h3⟩
    obtain ⟨rfl, rfl, k3⟩ := (key m mode h1 h2).1 h3
    exact ⟨h2, h1, k3⟩
  · rintro ⟨h2, h1, k3⟩
    exact ⟨_, _, h1, h2, (key _ _ h1 h2).2 ⟨rfl, rfl, k3⟩⟩

/-- a URL of the query that C27 says can make the realm code raise -/
def BrokenURL (U : Url.Uni) (q : Dict Str Str) : Prop :=
  (∃ u, arg q t!"return_to" = some u ∧ Broken U u) ∨ ∃ t, realmOf q = some t ∧ Broken U t

theorem parse_error {U : Url.Uni} {u : Str} {e : PyErr} (h : TrustRoot.parse U u = .error e) :
    Broken U u ∧ (e = .valueError ∨ e = .attributeError) := by
  rcases TrustRoot.parse_cases U u with ⟨h', -⟩ | ⟨e', h', h1, h2, h3⟩ | ⟨_, _, _, _, _, _, _, _, h'⟩
  · rw [h'] at h; cases h
  · rw [h'] at h; cases h; exact ⟨⟨h1, h2⟩, h3⟩
  · rw [h'] at h; cases h

theorem validate_error {U : Url.Uni} {t u : Str} {r : TrustRoot.Realm} {e : PyErr} (hr : TrustRoot.parse U t = .ok (some r))
    (h : TrustRoot.validateURL U r u = .error e) : Broken U u ∧ (e = .valueError ∨ e = .typeError) := by
  rcases TrustRoot.parse_cases U t with ⟨h', -⟩ | ⟨e', h', h1, h2, h3⟩ | ⟨L, q, w, k, h1, h2, h3, h4, h'⟩
  · rw [h'] at hr; cases hr
  · rw [h'] at hr; cases hr
  · rw [h'] at hr; cases hr
    rcases TrustRoot.validate_cases (U := U) (realm := t) h3 h4 u with ⟨b, e1, -⟩ | ⟨e', e1, e2, e3, e4⟩
    · rw [e1] at h; cases h
    · rw [e1] at h; cases h; exact ⟨⟨e2, e3⟩, e4⟩

/-- **C34** What decoding raises.  A ProtocolError, with a message to answer to, which has the plain arguments of
    the query (the declaration of the version aside); or else
    * AssertionError for an extension under an impossible name, such as `openid.ns.mode`; if the version is unknown, also
      InvalidNamespace for an extension that is there twice;
    * ValueError for an OpenID 2 checkid query when the server was given no endpoint;
    * an exception of the realm code (ValueError, AttributeError, TypeError) for a checkid query with a broken URL. -/
theorem c34_errors (W : World) (E : Env) (op : Option Str) (q : Dict Str Str) (hq : Dict.WF q) (e : Err)
    (h : decode W E op q = .error e) :
    (∃ why m, e = .protocol why (some m) ∧ Built W.reg m ∧ (∃ oid, m.getOpenIDNamespace = some oid) ∧
      ∀ k, '.' ∉ k → k ≠ t!"ns" → m.getArg .openid k = .ok (arg q k)) ∨
    (∃ p, e = .py p ∧ Misnamed W.reg (arg q) p) ∨
    ((arg q t!"mode" = some t!"checkid_setup" ∨ arg q t!"mode" = some t!"checkid_immediate") ∧
      (e = .py .valueError ∧ op = none ∧ ¬ IsV1 q ∨
        (e = .py .valueError ∨ e = .py .attributeError ∨ e = .py .typeError) ∧ BrokenURL W.uni q)) := by
  unfold decode at h
  split at h
  · simp at h
  · rcases bind_eq_error.1 h with h | ⟨m, hm, h⟩
    · -- parsing
      unfold decodeMessage at h
      split at h
      · simp at h
      · next hp =>
        rcases bind_eq_error.1 h with h | ⟨m, hm, h⟩
        · obtain ⟨p, h1, rfl⟩ := lift_error.1 h
          right; left
          refine ⟨p, rfl, .inr ⟨?_, ?_⟩⟩
          · rcases fromPostArgs_why hq hp with ⟨-, h2⟩ | ⟨-, h2⟩
            · exact h2
            · cases h2
          · have hset : ∀ k, arg (q.set t!"openid.ns" OPENID2_NS) k = if k = t!"ns" then some OPENID2_NS else arg q k := by
              intro k
              rw [arg, arg, Dict.get?_set]
              by_cases hk : k = t!"ns"
              · subst hk; rfl
              · rw [if_neg hk, if_neg]
                intro e
                exact hk (by simpa using e.symm)
            rcases fromPostArgs_why (Dict.WF_set _ hq _ _) h1 with ⟨-, u, h2, h3⟩ | ⟨-, h2⟩
            · rw [hset, if_pos rfl] at h2
              cases h2
              exact absurd h3 (by decide)
            · rw [versionIn, hset, if_pos rfl] at h2
              refine h2.congr (fun k hk => ?_)
              rw [hset, if_neg]
              rintro rfl
              revert hk; decide
        · have hP := parsed (Dict.WF_set _ hq _ _) (lift_ok.1 hm)
          simp at h
          refine .inl ⟨_, _, h.symm, .parsed _ _ (lift_ok.1 hm), hP.ns, fun k h1 h2 => ?_⟩
          rw [hP.get k h1 h2, arg, arg, Dict.get?_set, if_neg]
          intro e
          exact h2 (by simpa using e.symm)
      · next hp =>
        rcases bind_eq_error.1 h with h | ⟨m, hm, h⟩
        · obtain ⟨p, h1, rfl⟩ := lift_error.1 h
          have hw : Dict.WF (q.filter fun p => p.1.count '.' < 2) := by
            unfold Dict.WF Dict.keys at *
            exact List.Sublist.nodup (List.Sublist.map _ (List.filter_sublist)) hq
          rcases fromPostArgs_error hq hp with ⟨h', -⟩ | ⟨hg, -⟩
          · cases h'
          · rcases fromPostArgs_error hw h1 with ⟨-, u, h2, h3⟩ | ⟨-, -, k, h3, h4⟩
            · have : q.get? t!"openid.ns" = some u := by
                apply Dict.get?_of_mem _ hq
                exact (List.mem_filter.1 (Dict.get?_mem _ _ _ h2)).1
              exact absurd (hg u this) h3
            · obtain ⟨⟨k', v⟩, hk1, rfl⟩ := List.mem_map.1 h3
              have := (List.mem_filter.1 hk1).2
              simp at this h4; omega
        · have hw : Dict.WF (q.filter fun p => p.1.count '.' < 2) := by
            unfold Dict.WF Dict.keys at *
            exact List.Sublist.nodup (List.Sublist.map _ (List.filter_sublist)) hq
          have hP := parsed hw (lift_ok.1 hm)
          simp at h
          refine .inl ⟨_, _, h.symm, .parsed _ _ (lift_ok.1 hm), hP.ns, fun k h1 h2 => ?_⟩
          rw [hP.get k h1 h2, arg, arg]
          congr 1
          apply Option.ext
          intro v
          constructor
          · intro hv
            exact Dict.get?_of_mem _ hq _ _ (List.mem_filter.1 (Dict.get?_mem _ _ _ hv)).1
          · intro hv
            refine Dict.get?_of_mem _ hw _ _ (List.mem_filter.2 ⟨Dict.get?_mem _ _ _ hv, ?_⟩)
            have : (t!"openid." ++ k).count '.' = 1 := by
              rw [List.count_append, List.count_eq_zero.2 h1]; decide
            simp only [this]; decide
      · next e' hp1 hp2 hp =>
        simp only [Except.error.injEq] at h
        subst h
        rcases fromPostArgs_why hq hp with ⟨h', -⟩ | ⟨-, h'⟩
        · exact absurd h' hp1
        · refine .inr (.inl ⟨e', rfl, .inl ⟨?_, h'⟩⟩)
          rcases fromPostArgs_error hq hp with ⟨h2, -⟩ | ⟨-, h2 | h2, -⟩
          · exact absurd h2 hp1
          · exact h2
          · exact absurd h2 hp2
    · have hp : fromPostArgs W.reg q = .ok m := by
        unfold decodeMessage at hm
        split at hm
        · simp only [Except.ok.injEq] at hm; subst hm; assumption
        · obtain ⟨_, -, h⟩ := bind_eq_ok.1 hm; simp at h
        · obtain ⟨_, -, h⟩ := bind_eq_ok.1 hm; simp at h
        · simp at hm
      have hP := parsed hq hp
      have g := fun k h h' => hP.get k h h'
      rw [g t!"mode" (by decide) (by decide)] at h
      simp only [lift, ok_bind] at h
      split at h
      · simp at h; exact .inl ⟨_, _, h.symm, .parsed _ _ hp, hP.ns, hP.get⟩
      · simp at h; exact .inl ⟨_, _, h.symm, .parsed _ _ hp, hP.ns, hP.get⟩
      · next c rest hmode =>
        have h : dispatch W E op m (c :: rest) = .error e := by
          rcases bind_eq_error.1 h with h | ⟨_, -, h⟩
          · exact h
          · simp at h
        obtain ⟨mode, hmo⟩ : ∃ mode, mode = c :: rest := ⟨_, rfl⟩
        rw [← hmo] at h hmode
        have hmap : ∀ {α : Type} {x : Except Err α} {f : α → Request}, x.map f = .error e → x = .error e := by
          intro α x f h; cases x <;> simp [Except.map] at h ⊢; exact h
        unfold dispatch at h
        split at h
        · next hcm =>
          have h := hmap h
          have hmo' : arg q t!"mode" = some t!"checkid_setup" ∨ arg q t!"mode" = some t!"checkid_immediate" := by
            rw [hmode]; simpa using hcm
          rw [CheckIDRequest.fromMessage, g t!"mode" (by decide) (by decide), hmode] at h
          simp only [lift, ok_bind] at h
          rw [if_neg (by rcases hcm with rfl | rfl <;> simp), g t!"return_to" (by decide) (by decide)] at h
          simp only [ok_bind] at h
          split at h
          · simp at h; exact .inl ⟨_, _, h.symm, .parsed _ _ hp, hP.ns, hP.get⟩
          · rw [g t!"identity" (by decide) (by decide), g t!"claimed_id" (by decide) (by decide)] at h
            have hreal : m.getArg .openid (if m.isOpenID1 = true then t!"trust_root" else t!"realm") =
                .ok (if IsV1 q then arg q t!"trust_root" else arg q t!"realm") := by
              by_cases h : m.isOpenID1 = true
              · rw [if_pos h, if_pos (hP.v1.1 h)]; exact g _ (by decide) (by decide)
              · rw [if_neg h, if_neg (fun e => h (hP.v1.2 e))]; exact g _ (by decide) (by decide)
            rw [hreal, g t!"assoc_handle" (by decide) (by decide)] at h
            simp only [ok_bind, orElse_eq] at h
            have hro : (given (if IsV1 q then arg q t!"trust_root" else arg q t!"realm")).or (arg q t!"return_to") =
              realmOf q := rfl
            rw [hro] at h
            split at h
            · simp at h; exact .inl ⟨_, _, h.symm, .parsed _ _ hp, hP.ns, hP.get⟩
            · rw [CheckIDRequest.new] at h
              have hreq : (given (realmOf q)).or (arg q t!"return_to") = realmOf q := by
                simp only [realmOf]
                generalize (if IsV1 q then arg q t!"trust_root" else arg q t!"realm") = a
                generalize arg q t!"return_to" = b
                rcases a with _ | _ | _ <;> rcases b with _ | _ | _ <;> simp [given]
              simp only [requestMessage, ok_bind, orElse_eq, hreq] at h
              rcases bind_eq_error.1 h with h | ⟨_, -, h⟩
              · unfold checkIdentifiers at h
                split at h
                · split at h
                  · simp at h; exact .inl ⟨_, _, h.symm, .parsed _ _ hp, hP.ns, hP.get⟩
                  · simp at h
                · split at h
                  · simp at h; exact .inl ⟨_, _, h.symm, .parsed _ _ hp, hP.ns, hP.get⟩
                  · split at h
                    · simp at h; exact .inl ⟨_, _, h.symm, .parsed _ _ hp, hP.ns, hP.get⟩
                    · simp at h
              · split at h
                · next hb =>
                  simp only [Bool.and_eq_true, Option.isNone_iff_eq_none] at hb
                  simp at h
                  exact .inr (.inr ⟨hmo', .inl ⟨h.symm, hb.2, hP.v2.1 hb.1⟩⟩)
                · rcases bind_eq_error.1 h with h | ⟨_, -, h⟩
                  · unfold checkReturnTo at h
                    split at h
                    · simp at h
                    · next u hu =>
                      split at h
                      · next he =>
                        simp only [Except.error.injEq] at h
                        obtain ⟨b1, b2⟩ := parse_error he
                        refine .inr (.inr ⟨hmo', .inr ⟨?_, .inl ⟨u, hu, b1⟩⟩⟩)
                        rcases b2 with rfl | rfl <;> simp [← h]
                      · simp at h; exact .inl ⟨_, _, h.symm, .parsed _ _ hp, hP.ns, hP.get⟩
                      · simp at h
                  · rcases bind_eq_error.1 h with h | ⟨b, -, h⟩
                    · unfold CheckIDRequest.trustRootValid at h
                      simp only at h
                      split at h
                      · simp at h
                      · simp at h
                      · next c tr htr =>
                        split at h
                        · next he =>
                          simp only [Except.error.injEq] at h
                          obtain ⟨b1, b2⟩ := parse_error he
                          refine .inr (.inr ⟨hmo', .inr ⟨?_, .inr ⟨_, htr, b1⟩⟩⟩)
                          rcases b2 with rfl | rfl <;> simp [← h]
                        · simp at h; exact .inl ⟨_, _, h.symm, .parsed _ _ hp, hP.ns, hP.get⟩
                        · next realm hrm =>
                          split at h
                          · simp at h
                          · next u hu =>
                            obtain ⟨p, he, rfl⟩ := lift_error.1 h
                            obtain ⟨b1, b2⟩ := validate_error hrm he
                            refine .inr (.inr ⟨hmo', .inr ⟨?_, .inl ⟨u, hu, b1⟩⟩⟩)
                            rcases b2 with rfl | rfl <;> simp
                    · split at h
                      · simp at h
                      · simp at h; exact .inl ⟨_, _, h.symm, .parsed _ _ hp, hP.ns, hP.get⟩
        · split at h
          · have h := hmap h
            rw [CheckAuthRequest.fromMessage, g t!"assoc_handle" (by decide) (by decide),
              g t!"sig" (by decide) (by decide), g t!"invalidate_handle" (by decide) (by decide)] at h
            simp only [lift, ok_bind] at h
            obtain ⟨oid, ho⟩ := hP.ns
            obtain ⟨m', hm', -⟩ := setArg_ok m hP.inv .openid t!"mode" t!"id_res" (.uri oid) (by simp [Msg.fixNS, ho])
            split at h
            · simp only [Msg.hasKey, Msg.fixNS, ho, ok_bind, pure_eq_ok, hm'] at h
              split at h <;> simp at h
            · simp at h; exact .inl ⟨_, _, h.symm, .parsed _ _ hp, hP.ns, hP.get⟩
          · split at h
            · have h := hmap h
              rw [AssociateRequest.fromMessage] at h
              rcases bind_eq_error.1 h with h | ⟨⟨st, ty⟩, -, h⟩
              · obtain ⟨why, rfl⟩ := types_error hP h
                exact .inl ⟨_, _, rfl, .parsed _ _ hp, hP.ns, hP.get⟩
              · simp only at h
                split at h
                · simp at h; exact .inl ⟨_, _, h.symm, .parsed _ _ hp, hP.ns, hP.get⟩
                · next x hx =>
                  rcases bind_eq_error.1 h with h | ⟨s, -, h⟩
                  · have hx' : ∀ e, x = .error e → e = .py .valueError ∨ ∃ why, e = .protocol why (some m) := by
                      intro e he
                      subst he
                      unfold sessionFor at hx
                      split at hx
                      · simp at hx
                      · split at hx
                        · simp only [Option.some.injEq] at hx; exact dhSession_error hP hx
                        · split at hx
                          · simp only [Option.some.injEq] at hx; exact dhSession_error hP hx
                          · simp at hx
                    unfold sessionOrError at h
                    split at h
                    · simp at h
                    · rcases hx' _ rfl with h' | ⟨_, h'⟩
                      · simp only [Err.py.injEq] at h'
                        subst h'
                        simp only [PyErr.isValueError, if_true, Except.error.injEq] at h
                        exact .inl ⟨_, _, h.symm, .parsed _ _ hp, hP.ns, hP.get⟩
                      · cases h'
                    · simp only [Except.error.injEq] at h
                      subst h
                      rcases hx' _ rfl with h' | ⟨_, h'⟩
                      · exact (‹∀ e : PyErr, _ = Err.py e → False› _ h').elim
                      · exact .inl ⟨_, _, h', .parsed _ _ hp, hP.ns, hP.get⟩
                  · split at h
                    · simp at h
                    · simp at h; exact .inl ⟨_, _, h.symm, .parsed _ _ hp, hP.ns, hP.get⟩
            · simp at h; exact .inl ⟨_, _, h.symm, .parsed _ _ hp, hP.ns, hP.get⟩

/-- the exception the decoder raised -/
def raised0 (q : Dict Str Str) : Option Err :=
  match decode sworld0 senv0 (some t!"http://op/") q with
  | .error e => some e
  | .ok _ => none

/-- the exceptions C34 leaves room for do happen: an alias that is the name of a field of OpenID -/
theorem c34_alias_raises : raised0 [(t!"openid.mode", t!"checkid_setup"), (t!"openid.ns.mode", t!"http://example.com/")] =
    some (.py .assertionError) := by decide

/-- ... an alias with a dot -/
theorem c34_dot_raises : raised0 [(t!"openid.mode", t!"checkid_setup"), (t!"openid.ns.a.b", t!"http://example.com/")] =
    some (.py .assertionError) := by decide

/-- ... and two aliases for one namespace, in a query that has a bad `openid.ns` as well -/
theorem c34_twice_raises : raised0 [(t!"openid.ns", t!"http://bad/"), (t!"openid.ns.a", t!"http://example.com/"),
    (t!"openid.ns.b", t!"http://example.com/")] = some (.py .invalidNamespace) := by decide

/-- the kind of request decoded -/
def kind0 (q : Dict Str Str) : Option Str :=
  match decode sworld0 senv0 (some t!"http://op/") q with
  | .ok (some r) => some r.mode
  | _ => none

/-- an associate request with the group of order 22 -/
def associate0 (session : Str) : Dict Str Str :=
  [(t!"openid.ns", OPENID2_NS), (t!"openid.mode", t!"associate"), (t!"openid.session_type", session),
   (t!"openid.assoc_type", t!"HMAC-SHA1"), (t!"openid.dh_modulus", t!"Fw=="), (t!"openid.dh_gen", t!"BQ=="),
   (t!"openid.dh_consumer_public", t!"CA==")]

-- all kinds of requests; types that do not fit together; a return_to outside the realm; a URL without a proper port
example : kind0 (associate0 t!"DH-SHA1") = some t!"associate" ∧ kind0 (associate0 t!"no-encryption") = some t!"associate" ∧
    kind0 [(t!"openid.mode", t!"associate")] = some t!"associate" ∧
    (∃ m, raised0 (associate0 t!"DH-SHA256") = some (.protocol .sessionMismatch m)) ∧
    kind0 [(t!"openid.mode", t!"check_authentication"), (t!"openid.assoc_handle", t!"h"), (t!"openid.sig", t!"s")] =
      some t!"check_authentication" ∧
    (∃ m, raised0 [(t!"openid.mode", t!"check_authentication")] = some (.protocol .missingField m)) ∧
    kind0 [(t!"openid.mode", t!"checkid_setup"), (t!"openid.identity", t!"x"), (t!"openid.return_to", t!"http://rp/")] =
      some t!"checkid_setup" ∧
    (∃ m, raised0 [(t!"openid.mode", t!"checkid_setup"), (t!"openid.identity", t!"x"),
      (t!"openid.return_to", t!"http://rp/"), (t!"openid.trust_root", t!"http://other/")] =
        some (.protocol .untrustedReturnURL m)) :=
  ⟨by decide +kernel, by decide +kernel, by decide +kernel, ⟨_, rfl⟩, by decide +kernel, ⟨_, rfl⟩, by decide +kernel,
    ⟨_, rfl⟩⟩

end Props
