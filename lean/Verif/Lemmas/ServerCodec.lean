import Verif.Lemmas.MessageParse
import Verif.Lemmas.Server
import Verif.Props.TrustRoot
import Verif.Spec.ServerCodec
/-! # Decoding requests -/

namespace Server
open Py Message Spec TrustRoot

theorem truthy_iff (o : Option Str) : truthy o = true ↔ ∃ c s, o = some (c :: s) := by
  rcases o with _ | _ | _ <;> simp [truthy]

theorem orElse_eq (a b : Option Str) : orElse a b = (given a).or b := by
  rcases a with _ | _ | _ <;> simp [orElse, truthy, given]

theorem given_truthy (o : Option Str) : truthy o = (given o).isSome := by
  rcases o with _ | _ | _ <;> simp [truthy, given]

/-- a message parsed from a query -/
structure Parsed (m : Msg) (q : Dict Str Str) : Prop where
  get : ∀ k, '.' ∉ k → k ≠ t!"ns" → m.getArg .openid k = .ok (arg q k)
  ns : ∃ oid, m.getOpenIDNamespace = some oid
  v1 : m.isOpenID1 = true ↔ IsV1 q
  v2 : m.isOpenID2 = true ↔ ¬ IsV1 q
  inv : MInv m

theorem parsed {reg q : Dict Str Str} (hq : Dict.WF q) {m : Msg} (h : fromPostArgs reg q = .ok m) : Parsed m q := by
  obtain ⟨h1, h2⟩ := fromPostArgs_has hq h
  have hns : m.getOpenIDNamespace = some ((q.get? t!"openid.ns").getD OPENID1_NS) := h1.ns
  have hor := h1.inv.oid _ h1.ns
  have hv : m.isOpenID1 = true ↔ IsV1 q := by
    simp only [Msg.isOpenID1, hns]
    have he : arg q t!"ns" = q.get? t!"openid.ns" := rfl
    simp only [IsV1, he]
    cases hg : q.get? t!"openid.ns" with
    | none => simp; decide
    | some u =>
      simp only [Option.getD_some, OPENID1_NAMESPACES, List.contains_iff_mem, List.mem_cons, List.not_mem_nil, or_false,
        Option.some.injEq, forall_eq']
      simp only [OPENID1_NS, THE_OTHER_OPENID1_NS]
  refine ⟨h2, ⟨_, hns⟩, hv, ?_, h1.inv⟩
  rw [← hv]
  simp only [Msg.isOpenID1, Msg.isOpenID2, hns]
  simp only [List.mem_cons, List.not_mem_nil, or_false] at hor
  rcases hor with hor | hor | hor <;> rw [hor] <;> decide

theorem checkReturnTo_ok {W : World} {a : Option Msg} {o : Option Str} :
    checkReturnTo W a o = .ok () ↔ ∀ u, o = some u → ∃ R, locate W.uni u = some R ∧ IsRealm R := by
  cases o with
  | none => simp [checkReturnTo]
  | some u =>
    simp only [checkReturnTo, Option.some.injEq, forall_eq']
    rw [← Props.c27_parse]
    cases TrustRoot.parse W.uni u with
    | error e => simp
    | ok r => cases r <;> simp

theorem trustRootValid_ok {W : World} {r : CheckIDRequest} :
    r.trustRootValid W = .ok true ↔ ∀ t, given r.trustRoot = some t → ∃ L, locate W.uni t = some L ∧ IsRealm L ∧
      ∀ u, r.returnTo = some u → ∃ R, locate W.uni u = some R ∧ Covers L R := by
  unfold CheckIDRequest.trustRootValid
  rcases r.trustRoot with _ | _ | ⟨c, t⟩
  · simp [given]
  · simp [given]
  · simp only [given, Option.some.injEq, forall_eq']
    cases hp : TrustRoot.parse W.uni (c :: t) with
    | error e =>
      simp only [reduceCtorEq, false_iff]
      rintro ⟨L, h1, h2, -⟩
      obtain ⟨x, hx⟩ := (Props.c27_parse W.uni (c :: t)).2 ⟨L, h1, h2⟩
      rw [hp] at hx; cases hx
    | ok o =>
      cases o with
      | none =>
        simp only [reduceCtorEq, false_iff]
        rintro ⟨L, h1, h2, -⟩
        obtain ⟨x, hx⟩ := (Props.c27_parse W.uni (c :: t)).2 ⟨L, h1, h2⟩
        rw [hp] at hx; cases hx
      | some realm =>
        obtain ⟨L, h1, h2⟩ := (Props.c27_parse W.uni (c :: t)).1 ⟨realm, hp⟩
        cases hr : r.returnTo with
        | none => simp [h1, h2]
        | some u =>
          simp only [lift_ok]
          rw [Props.c27_validate W.uni _ u realm hp]
          simp only [h1, Option.some.injEq, forall_eq']
          constructor
          · rintro ⟨L', R, e1, e2, e3⟩
            cases e1
            exact ⟨L, rfl, h2, R, e2, e3⟩
          · rintro ⟨L', e1, -, R, e2, e3⟩
            cases e1
            exact ⟨L, R, rfl, e2, e3⟩

/-- when a checkid request can be made -/
theorem checkIDNew_ok {W : World} {i rt tr ah op cid : Option Str} {im : Bool} {m : Msg} {r : CheckIDRequest}
    (hm2 : m.isOpenID2 = true ↔ ¬ m.isOpenID1 = true) :
    CheckIDRequest.new W i rt tr im ah op cid (some m) = .ok r ↔
      r = ⟨m, i, cid, rt, (given tr).or rt, ah, op, im⟩ ∧
      (m.isOpenID1 = true → i.isSome = true) ∧
      (¬ m.isOpenID1 = true → (i.isSome = true ↔ cid.isSome = true) ∧ op.isSome = true) ∧
      (∀ u, rt = some u → ∃ R, locate W.uni u = some R ∧ IsRealm R) ∧
      (∀ t, given ((given tr).or rt) = some t → ∃ L, locate W.uni t = some L ∧ IsRealm L ∧
        ∀ u, rt = some u → ∃ R, locate W.uni u = some R ∧ Covers L R) := by
  rw [CheckIDRequest.new]
  simp only [requestMessage, ok_bind, orElse_eq]
  have hid : checkIdentifiers m (some m) i cid = .ok () ↔
      (m.isOpenID1 = true → i.isSome = true) ∧ (¬ m.isOpenID1 = true → (i.isSome = true ↔ cid.isSome = true)) := by
    unfold checkIdentifiers
    cases m.isOpenID1 <;> cases i <;> cases cid <;> simp
  constructor
  · intro h
    obtain ⟨⟨⟩, h1, h2⟩ := bind_eq_ok.1 h
    split at h2
    · simp at h2
    · next hop =>
      obtain ⟨⟨⟩, h3, h4⟩ := bind_eq_ok.1 h2
      obtain ⟨b, h5, h6⟩ := bind_eq_ok.1 h4
      split at h6
      · next hb =>
        subst hb
        simp only [pure_eq_ok, Except.ok.injEq] at h6
        obtain ⟨k1, k2⟩ := hid.1 h1
        refine ⟨h6.symm, k1, fun hn => ⟨k2 hn, ?_⟩, checkReturnTo_ok.1 h3, trustRootValid_ok.1 h5⟩
        have := hm2.2 hn
        cases op <;> simp [this] at hop ⊢
      · simp at h6
  · rintro ⟨rfl, k1, k2, k3, k4⟩
    rw [hid.2 ⟨k1, fun hn => (k2 hn).1⟩]
    simp only [ok_bind]
    rw [if_neg, checkReturnTo_ok.2 k3]
    · simp only [ok_bind]
      rw [trustRootValid_ok.2 k4]
      simp
    · simp only [Bool.and_eq_true, not_and, Bool.not_eq_true]
      intro h2
      have := (k2 (hm2.1 h2)).2
      cases op <;> simp at this ⊢

theorem decode_cases {W : World} {E : Env} {op : Option Str} {q : Dict Str Str} (hq : Dict.WF q) {r : Request} :
    decode W E op q = .ok (some r) ↔ ∃ m mode, fromPostArgs W.reg q = .ok m ∧ arg q t!"mode" = some mode ∧
      dispatch W E op m mode = .ok r := by
  unfold decode
  by_cases hn : q = []
  · subst hn
    simp [arg]
  · rw [if_neg hn]
    cases hp : fromPostArgs W.reg q with
    | error e =>
      simp only [decodeMessage, hp]
      simp only [reduceCtorEq, false_and, exists_false, exists_const, iff_false]
      intro h
      obtain ⟨m, h1, -⟩ := bind_eq_ok.1 h
      split at h1
      · next h => cases h
      · obtain ⟨_, -, h⟩ := bind_eq_ok.1 h1; simp at h
      · obtain ⟨_, -, h⟩ := bind_eq_ok.1 h1; simp at h
      · simp at h1
    | ok m =>
      have hP := parsed hq hp
      simp only [decodeMessage, hp, ok_bind, hP.get t!"mode" (by decide) (by decide), lift, Except.ok.injEq,
        exists_and_left, exists_eq_left']
      have hd0 : dispatch W E op m [] = .ok r ↔ False := by
        unfold dispatch
        rw [if_neg (by decide), if_neg (by decide), if_neg (by decide)]
        simp
      rcases arg q t!"mode" with _ | _ | ⟨c, s⟩
      · simp
      · simp [hd0]
      · simp only [Option.some.injEq, exists_eq_left']
        constructor
        · intro h
          obtain ⟨x, h1, h2⟩ := bind_eq_ok.1 h
          simp only [pure_eq_ok, Except.ok.injEq, Option.some.injEq] at h2
          rw [h1, h2]
        · intro h; rw [h]; rfl

theorem map_ok_iff {α β : Type} {x : Except Err α} {f : α → β} {b : β} :
    x.map f = .ok b ↔ ∃ a, x = .ok a ∧ f a = b := by
  cases x <;> simp [Except.map]

end Server

namespace Server
open Py Message Spec TrustRoot DH

theorem dhSession_ok {W : World} {E : Env} {b : Bool} {m : Msg} {q : Dict Str Str} (hP : Parsed m q) {s : Session} :
    dhSession W E b m = .ok s ↔ ∃ modulus gen d k, s = .dh b d k ∧ ParamsAsked q modulus gen ∧
      DiffieHellman.new W.lib modulus gen E.priv = .ok d ∧ arg q t!"dh_consumer_public" = some k ∧
      ∃ raw, Base64.decode k = .ok raw := by
  have g := fun k h h' => hP.get k h h'
  rw [dhSession, g t!"dh_modulus" (by decide) (by decide), g t!"dh_gen" (by decide) (by decide),
    g t!"dh_consumer_public" (by decide) (by decide)]
  simp only [lift, ok_bind]
  have hwith : ∀ d, dhWith b m d (arg q t!"dh_consumer_public") = .ok s ↔ ∃ k, s = .dh b d k ∧
      arg q t!"dh_consumer_public" = some k ∧ ∃ raw, Base64.decode k = .ok raw := by
    intro d
    cases hk : arg q t!"dh_consumer_public" with
    | none => simp [dhWith]
    | some k =>
      simp only [dhWith, Option.some.injEq]
      cases hd : Base64.decode k with
      | error e =>
        simp only [reduceCtorEq, false_iff]
        rintro ⟨k', -, rfl, raw, hr⟩
        rw [hd] at hr; cases hr
      | ok raw =>
        simp only [Except.ok.injEq]
        constructor
        · rintro rfl; exact ⟨k, rfl, rfl, raw, hd⟩
        · rintro ⟨k', rfl, rfl, -⟩; rfl
  have hfor : ∀ d, ¬ ((arg q t!"dh_modulus").isNone && (arg q t!"dh_gen").isSome ||
        (arg q t!"dh_gen").isNone && (arg q t!"dh_modulus").isSome) = true →
      (dhFor W E (arg q t!"dh_modulus") (arg q t!"dh_gen") = .ok d ↔ ∃ modulus gen, ParamsAsked q modulus gen ∧
        DiffieHellman.new W.lib modulus gen E.priv = .ok d) := by
    intro d
    rw [dhFor]
    simp only [ParamsAsked, given_truthy]
    rcases arg q t!"dh_modulus" with _ | _ | ⟨c, u⟩ <;> rcases arg q t!"dh_gen" with _ | _ | ⟨c', u'⟩ <;>
      simp [given, DiffieHellman.fromDefaults, and_assoc]
    constructor
    · intro h; exact ⟨_, _, .inr ⟨rfl, rfl⟩, h⟩
    · rintro ⟨_, _, ⟨rfl, rfl, h | h⟩ | ⟨rfl, rfl⟩, h'⟩
      · exact absurd rfl h
      · exact absurd rfl h
      · exact h'
  have hparams : ∀ modulus gen, ParamsAsked q modulus gen → ¬ ((arg q t!"dh_modulus").isNone && (arg q t!"dh_gen").isSome ||
        (arg q t!"dh_gen").isNone && (arg q t!"dh_modulus").isSome) = true := by
    intro modulus gen
    simp only [ParamsAsked]
    rcases arg q t!"dh_modulus" with _ | _ | ⟨c, u⟩ <;> rcases arg q t!"dh_gen" with _ | _ | ⟨c', u'⟩ <;> simp
  split
  · next h =>
    simp only [throw_eq_error, reduceCtorEq, false_iff]
    rintro ⟨modulus, gen, d, k, -, hp, -⟩
    exact hparams _ _ hp h
  · next h =>
    cases hd : dhFor W E (arg q t!"dh_modulus") (arg q t!"dh_gen") with
    | error e =>
      simp only [error_bind, reduceCtorEq, false_iff]
      rintro ⟨modulus, gen, d, k, -, hp, hn, -⟩
      have := (hfor d h).2 ⟨modulus, gen, hp, hn⟩
      rw [hd] at this; cases this
    | ok d =>
      simp only [ok_bind]
      rw [hwith]
      obtain ⟨modulus, gen, hp, hn⟩ := (hfor d h).1 hd
      constructor
      · rintro ⟨k, rfl, hk, hr⟩; exact ⟨modulus, gen, d, k, rfl, hp, hn, hk, hr⟩
      · rintro ⟨modulus', gen', d', k, rfl, hp', hn', hk, hr⟩
        have := (hfor d' h).2 ⟨modulus', gen', hp', hn'⟩
        rw [hd] at this; cases this
        exact ⟨k, rfl, hk, hr⟩

theorem base64ToLong_error {s : Str} {e : PyErr} (h : Cryptutil.base64ToLong s = .error e) : e = .valueError := by
  rw [Cryptutil.base64ToLong] at h
  rcases bind_eq_error.1 h with h | ⟨b, -, h⟩
  · exact Base64.decode_error _ _ h
  · cases b <;> simp [Cryptutil.bytesToInt] at h; exact h.symm

theorem dhNew_error {L : Lib} {a b : Str} {n : Nat} {e : PyErr} (h : DiffieHellman.new L a b n = .error e) :
    e = .valueError := by
  rw [DiffieHellman.new] at h
  rcases bind_eq_error.1 h with h | ⟨_, -, h⟩
  · exact base64ToLong_error h
  · rcases bind_eq_error.1 h with h | ⟨_, -, h⟩
    · exact base64ToLong_error h
    · split at h <;> simp at h; exact h.symm

theorem dhSession_error {W : World} {E : Env} {b : Bool} {m : Msg} {q : Dict Str Str} (hP : Parsed m q) {e : Err}
    (h : dhSession W E b m = .error e) : e = .py .valueError ∨ ∃ why, e = .protocol why (some m) := by
  have g := fun k h h' => hP.get k h h'
  rw [dhSession, g t!"dh_modulus" (by decide) (by decide), g t!"dh_gen" (by decide) (by decide),
    g t!"dh_consumer_public" (by decide) (by decide)] at h
  simp only [lift, ok_bind] at h
  split at h
  · simp at h; exact .inr ⟨_, h.symm⟩
  · split at h
    · simp only [ok_bind] at h
      unfold dhWith at h
      split at h
      · simp at h; exact .inr ⟨_, h.symm⟩
      · split at h
        · next hd => simp at h; rw [Base64.decode_error _ _ hd] at h; exact .inl h.symm
        · simp at h
    · next hd =>
      simp only [error_bind, Except.error.injEq] at h
      rw [dhFor] at hd
      split at hd
      · rw [dhNew_error hd] at h; exact .inl h.symm
      · rw [DiffieHellman.fromDefaults] at hd; rw [dhNew_error hd] at h; exact .inl h.symm

/-- the types an associate request names -/
theorem types_ok {m : Msg} {q : Dict Str Str} (hP : Parsed m q) {s a : Str} :
    AssociateRequest.types m = .ok (s, a) ↔ SessionAsked q s a := by
  have g := fun k h h' => hP.get k h h'
  obtain ⟨oid, ho⟩ := hP.ns
  unfold AssociateRequest.types SessionAsked
  by_cases hv : m.isOpenID1 = true
  · rw [if_pos hv, if_pos (hP.v1.1 hv), g t!"session_type" (by decide) (by decide),
      g t!"assoc_type" (by decide) (by decide)]
    simp only [lift, ok_bind, pure_eq_ok, Except.ok.injEq, Prod.mk.injEq, given_truthy]
    rcases arg q t!"session_type" with _ | _ | ⟨c, u⟩ <;> simp [given, eq_comm]
  · have hq : ¬ IsV1 q := fun h => hv (hP.v1.2 h)
    have h2 : oid = OPENID2_NS := by
      have := hP.v2.2 hq
      simpa [Msg.isOpenID2, ho] using this
    subst h2
    have hu : ∀ k, m.getArg (.uri OPENID2_NS) k = m.getArg .openid k := by
      intro k; simp only [Msg.getArg, Msg.fixNS, ho]; rw [if_neg (by decide)]
    rw [if_neg hv, if_neg hq, hu, hu, g t!"session_type" (by decide) (by decide),
      g t!"assoc_type" (by decide) (by decide)]
    simp only [lift, ok_bind]
    rcases arg q t!"session_type" with _ | s' <;> rcases arg q t!"assoc_type" with _ | a' <;> simp [lift]

theorem types_error {m : Msg} {q : Dict Str Str} (hP : Parsed m q) {e : Err}
    (h : AssociateRequest.types m = .error e) : ∃ why, e = .protocol why (some m) := by
  have g := fun k h h' => hP.get k h h'
  obtain ⟨oid, ho⟩ := hP.ns
  unfold AssociateRequest.types at h
  by_cases hv : m.isOpenID1 = true
  · rw [if_pos hv, g t!"session_type" (by decide) (by decide), g t!"assoc_type" (by decide) (by decide)] at h
    simp [lift] at h
  · have hq : ¬ IsV1 q := fun h => hv (hP.v1.2 h)
    have h2 : oid = OPENID2_NS := by
      have := hP.v2.2 hq
      simpa [Msg.isOpenID2, ho] using this
    subst h2
    have hu : ∀ k, m.getArg (.uri OPENID2_NS) k = m.getArg .openid k := by
      intro k; simp only [Msg.getArg, Msg.fixNS, ho]; rw [if_neg (by decide)]
    rw [if_neg hv, hu, hu, g t!"session_type" (by decide) (by decide), g t!"assoc_type" (by decide) (by decide)] at h
    simp only [lift, ok_bind] at h
    split at h
    · simp at h; exact ⟨_, h.symm⟩
    · split at h
      · simp at h; exact ⟨_, h.symm⟩
      · simp at h

end Server
