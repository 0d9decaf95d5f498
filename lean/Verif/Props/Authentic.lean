import Verif.Lemmas.Says
import Verif.Props.Honest
import Verif.Props.Replay
import Verif.Props.ServerEncode
import Verif.Props.ServerAnswer
/-! # C65: what a consumer accepts, the provider said -/

namespace Props
open Py Message Association Cryptutil Store Discover Spec
open Consumer (Ev)

/-- a signature checks: the provider signed the text, or it is forged -/
theorem vouched_or {V : Server.World} {W : Consumer.World} {seen : List Seen} {q : Dict Str Str} {mm : Msg} {l sig text : Str}
    {a : Assoc} (hl : arg q t!"signed" = some l) (hsig : arg q t!"sig" = some sig)
    (hneed : ∀ f ∈ neededSigned (decide (IsV1 q)), ∀ v, arg q f = some v → f ∈ splitOn ',' l)
    (htext : KVForm.seqToKV false ((splitOn ',' l).map fun f => (f, (mm.toPostArgs.get? (t!"openid." ++ f)).getD [])) = .ok text)
    (hs : sig = toBase64 (W.mac a.assocType a.secret (Utf8.encode text)))
    (hplain : ∀ k, '.' ∉ k → mm.toPostArgs.get? (t!"openid." ++ k) = arg q k)
    (hall : NoneSreg W.reg V.reg q → ∀ k, mm.toPostArgs.get? (t!"openid." ++ k) = arg q k) :
    (∃ f, Issued seen f ∧ Vouched q f ∧ (NoneSreg W.reg V.reg q → VouchedAll q f)) ∨ Forged W.mac seen a q := by
  by_cases hex : ∃ f, Issued seen f ∧ SignedText f text
  · left
    obtain ⟨f, hi, l', hl', ht⟩ := hex
    obtain ⟨rfl, hsame⟩ := Authentic.same_fields htext ht
    refine ⟨f, hi, ⟨⟨l, hl, hl', fun k hk hd => ?_⟩, fun k hk v hv hne => ?_⟩, fun hno => ⟨l, hl', fun k hk => ?_⟩⟩
    · rw [← hplain k hd]; exact hsame k hk
    · have hd : '.' ∉ k := by
        have : ∀ b, ∀ k ∈ neededSigned b, '.' ∉ k := by decide
        exact this _ k hk
      have := hsame k (hneed k hk v hv)
      rw [hplain k hd, hv] at this
      cases hg : f.toPostArgs.get? (t!"openid." ++ k) with
      | none => rw [hg] at this; exact absurd this hne
      | some w => rw [hg] at this; exact congrArg some this.symm
    · rw [← hall hno k]; exact hsame k hk
  · right
    exact ⟨sig, text, hsig, hs, fun f hi ht => hex ⟨f, hi, ht⟩⟩

/-- **C65** A consumer and a provider with any history of calls.  Where the consumer's questions reach the provider (or are
    not answered `is_valid:true`), a completion that succeeds is one of two things.  Either the provider signed a response
    that says what the consumer was told: the same list of signed fields with the same values, among them every field that
    must be signed (and those of extensions, unless a namespace is called `sreg`).  Or someone made a good signature, under
    a secret that only the two know, of a text that the provider never signed. -/
theorem c65_authentic {σ : Type} (V : Server.World) (step : σ → Event → σ × Outcome) (view : σ → AssocMap)
    (hf : Faithful V.clock step view) (s : σ) (hs : NonePrivate view s) (hist : List (Server.Env × Call))
    {W : Consumer.World} {C : Consumer.Conf} (hmac : V.mac = W.mac) {x : Completion} (hx : x.Ran W C) {e : Endpoint}
    (hok : x.succeeded = some e) (hreach : Reaches V (serve V step s hist).1 e.serverUrl x.events) :
    (∃ f, Issued (serve V step s hist).1 f ∧ Vouched x.query f ∧
      (NoneSreg W.reg V.reg x.query → VouchedAll x.query f)) ∨
    ∃ a, Key V (serve V step s hist).1 e.serverUrl x.events x.query a ∧ Forged W.mac (serve V step s hist).1 a x.query := by
  obtain ⟨m, signed, hv⟩ := succeeded_verified hx hok
  obtain ⟨l, hl, -, hneed⟩ := hv.signed
  have hg := Consumer.got hx.1 hv.message
  have hplain : ∀ k, '.' ∉ k → m.toPostArgs.get? (t!"openid." ++ k) = arg x.query k := by
    intro k hd
    by_cases h2 : k = t!"ns"
    · subst h2; exact post_ns hx.1 hv.message
    · exact hg.post k hd h2
  have hround : NoneSreg W.reg V.reg x.query → ∀ k, m.toPostArgs.get? (t!"openid." ++ k) = arg x.query k := fun hno k =>
    (c07_roundtrip W.reg x.query hx.1 hno.1 hno.2.2 m hv.message).2 _
  rcases hv.signature with ⟨-, handle, a, hh, hev, -, sig, l', text, hsig, hl', htext, hs'⟩ | ⟨ask, o, hask, hev, hrep, -⟩
  · rw [hl] at hl'; cases hl'
    rcases vouched_or (V := V) hl hsig hneed htext hs' hplain hround with h | h
    · exact .inl h
    · exact .inr ⟨a, ⟨handle, hh, .inl hev⟩, h⟩
  · obtain ⟨E, E', op, q2, r, resp, kv, hw2, hq2, hdec, hin, henc, rfl⟩ := hreach _ _ hev hrep
    obtain ⟨hp1, hp2, hp3, hp4⟩ := Authentic.asked_fields hx.1 hv.message hv.mode hask hw2 hq2 hdec
    obtain ⟨before, after, hsplit⟩ := List.append_of_mem hin
    obtain ⟨s', -, hr⟩ := Server.serve_known hf (known_nil V hs) hsplit
    have hvalid : SaysValid resp := by
      simp only [Call.prog] at hr
      cases hrun : Server.Prog.run step E.now s' (r.answer V E) with
      | mk s'' o =>
        rw [Server.run_bind, hrun] at hr
        cases o with
        | error e => simp at hr
        | ok resp' =>
          simp only [Server.run_pure, Except.ok.injEq, Reply.response.injEq] at hr
          subst hr
          obtain ⟨hreq, oid, v, d, hx', hv', hb, hd⟩ := Authentic.answer_shape hf hrun
          obtain ⟨kv', hkv, hw⟩ := (c52_direct resp (by rw [hreq]; simp) _).1 henc
          simp only [Server.WebResponse.mk.injEq] at hw
          obtain ⟨-, -, rfl⟩ := hw
          obtain ⟨r', text, D, h1, -, h3, h4, h5⟩ := hrep
          cases h1
          rw [Utf8.decode_encode] at h3
          cases h3
          have := Authentic.valid_read hx' hv' hb hd hkv h4 h5
          subst this
          rw [SaysValid, hx'.getArg, hv']
    obtain ⟨a, hpriv, hah, -, hchk⟩ := c30_only_private V step view hf s hs hist before after E r resp hsplit hvalid
    obtain ⟨sig, l', text, hsig, hl', htext, hs'⟩ :=
      Authentic.checked_text hchk (hp2 t!"sig" (by decide) (by decide)) (hp2 t!"signed" (by decide) (by decide))
    rw [hl] at hl'; cases hl'
    rw [hmac] at hs'
    rcases vouched_or (V := V) hl hsig hneed htext hs' hp1 (fun hno k => by
      rw [hp4 hno.2.1 (fun alias uri hu => hno.2.2 alias uri (by
        rw [← hround hno]; exact hu)) k]
      exact hround hno k) with h | h
    · exact .inl h
    · right
      obtain ⟨b1, y, b2, e1, e2, e3, -⟩ := hpriv
      refine ⟨a, ⟨r.assocHandle, hp3, .inr ⟨hah, y, ?_, e2, e3⟩⟩, h⟩
      rw [hsplit, e1]; simp

/-- the version a query that parses declares: the value, or none -/
theorem declared_eq {reg q q' : Dict Str Str} {m m' : Msg} {reg' : Dict Str Str} (hw : Dict.WF q) (hw' : Dict.WF q')
    (h : fromPostArgs reg q = .ok m) (h' : fromPostArgs reg' q' = .ok m')
    (he : (arg q t!"ns").getD [] = (arg q' t!"ns").getD []) : arg q t!"ns" = arg q' t!"ns" := by
  have key : ∀ {reg q : Dict Str Str} {m : Msg}, Dict.WF q → fromPostArgs reg q = .ok m → arg q t!"ns" ≠ some [] := by
    intro reg q m hw h e
    obtain ⟨hh, -⟩ := fromPostArgs_has hw h
    have := hh.inv.oid _ hh.ns
    rw [show q.get? t!"openid.ns" = some [] from e] at this
    revert this; decide
  have k1 := key hw h
  have k2 := key hw' h'
  cases h1 : arg q t!"ns" <;> cases h2 : arg q' t!"ns" <;> rw [h1, h2] at he <;> simp_all

theorem isV1_congr {q q' : Dict Str Str} (h : arg q t!"ns" = arg q' t!"ns") : IsV1 q ↔ IsV1 q' := by
  unfold IsV1; rw [h]

/-- a query that a response with an identity and without a claimed identifier vouches for is of OpenID 1 -/
theorem is_first {W : Consumer.World} {C : Consumer.Conf} {E : Consumer.Env} {session : Option Endpoint} {q : Dict Str Str}
    {current : Str} {evs : List Ev} {e : Endpoint} {m : Msg} {sf : List Str}
    (hv : Verified W C E session q current evs e m sf) {f : Msg} (hf : Vouched q f) {l : Str}
    (hl : f.getArg .openid t!"signed" = .ok (some l)) (h1 : t!"identity" ∈ splitOn ',' l)
    (h2 : (f.toPostArgs.get? t!"openid.identity").getD [] ≠ []) (h3 : t!"claimed_id" ∉ splitOn ',' l) : IsV1 q := by
  obtain ⟨l1, hq1, hf1, hsame⟩ := hf.list
  rw [hl] at hf1; cases hf1
  obtain ⟨l2, hq2, -, hneed⟩ := hv.signed
  rw [hq1] at hq2; cases hq2
  refine Classical.byContradiction fun hn => ?_
  have hd := hv.discovery
  rw [Confirmed, if_neg hn] at hd
  rcases hd with ⟨c, i, d, hc, -⟩ | ⟨sv, -, hi, -⟩
  · exact h3 (hneed t!"claimed_id" (by simp [neededSigned, hn]) c hc)
  · have := hsame _ h1 (by decide)
    rw [hi] at this
    exact h2 this.symm

theorem same_version {W : Consumer.World} {C : Consumer.Conf} {E E' : Consumer.Env} {session session' : Option Endpoint}
    {q q' : Dict Str Str} {current current' : Str} {evs evs' : List Ev} {e e' : Endpoint} {m m' : Msg} {sf sf' : List Str}
    (hw : Dict.WF q) (hw' : Dict.WF q') (hv : Verified W C E session q current evs e m sf)
    (hv' : Verified W C E' session' q' current' evs' e' m' sf') {f : Msg} (hp : PinsVersion f) (hf : Vouched q f)
    (hf' : Vouched q' f) : IsV1 q ↔ IsV1 q' := by
  obtain ⟨l, hl, hp | ⟨p1, p2, p3⟩⟩ := hp
  · obtain ⟨l1, -, hf1, h1⟩ := hf.list
    obtain ⟨l2, -, hf2, h2⟩ := hf'.list
    rw [hl] at hf1 hf2; cases hf1; cases hf2
    exact isV1_congr (declared_eq hw hw' hv.message hv'.message
      ((h1 _ hp (by decide)).trans (h2 _ hp (by decide)).symm))
  · exact iff_of_true (is_first hv hf hl p1 p2 p3) (is_first hv' hf' hl p1 p2 p3)

/-- **C65** A response of the provider is good for one success: among any completions against a store that takes no nonce
    twice, wherever and however often the response is brought, at most one succeeds on the strength of it. -/
theorem c65_once {W : Consumer.World} {C : Consumer.Conf} (hC : C.hasStore = true) {runs : List Completion}
    (hr : ∀ x ∈ runs, x.Ran W C) {calls : List (Op × Outcome)} (hs : OnceEach calls) (ha : Among runs calls) {f : Msg}
    (hp : PinsVersion f) :
    runs.Pairwise fun x y => ¬ (x.succeeded.isSome ∧ Vouched x.query f ∧ y.succeeded.isSome ∧ Vouched y.query f) := by
  rw [List.pairwise_iff_forall_sublist]
  rintro x y hsub ⟨hx, hvx, hy, hvy⟩
  have hxm : x ∈ runs := hsub.subset (by simp)
  have hym : y ∈ runs := hsub.subset (by simp)
  obtain ⟨e, he⟩ := Option.isSome_iff_exists.1 hx
  obtain ⟨e', he'⟩ := Option.isSome_iff_exists.1 hy
  obtain ⟨m, sl, hv⟩ := succeeded_verified (hr x hxm) he
  obtain ⟨m', sl', hv'⟩ := succeeded_verified (hr y hym) he'
  have hver := same_version (hr x hxm).1 (hr y hym).1 hv hv' hp hvx hvy
  obtain ⟨l, hl, hf1, h1⟩ := hvx.list
  obtain ⟨l', hl', hf2, h2⟩ := hvy.list
  rw [hf1] at hf2; cases hf2
  obtain ⟨l1, hl1, -, hneed⟩ := hv.signed
  rw [hl] at hl1; cases hl1
  have hval : ∀ k ∈ neededSigned (decide (IsV1 x.query)), ∀ v, arg x.query k = some v →
      (arg x.query k).getD [] = (arg y.query k).getD [] := by
    intro k hk v hkv
    have hd : '.' ∉ k := by
      have : ∀ b, ∀ k ∈ neededSigned b, '.' ∉ k := by decide
      exact this _ k hk
    have hm := hneed k hk v hkv
    exact (h1 k hm hd).trans (h2 k hm hd).symm
  have hnonce : nonceIn x.query e.serverUrl = nonceIn y.query e'.serverUrl := by
    by_cases hv1 : IsV1 x.query
    · have hv1' := hver.1 hv1
      rw [nonceIn, if_pos hv1, nonceIn, if_pos hv1']
      obtain ⟨rt, hrt, hret⟩ := hv.returnTo
      obtain ⟨rt', hrt', hret'⟩ := hv'.returnTo
      have hsame := hval t!"return_to" (by simp [neededSigned]) rt hrt
      rw [hrt, hrt'] at hsame
      simp only [Option.getD_some] at hsame
      subst hsame
      obtain ⟨u, hu, a1, a2⟩ := hret.args
      obtain ⟨u', hu', b1, b2⟩ := hret'.args
      rw [hu] at hu'; cases hu'
      obtain ⟨n, t, sa, k1, -⟩ := hv.nonce
      rw [nonceIn, if_pos hv1] at k1
      have hmem := a2 _ _ k1 (by decide)
      rw [show x.query.get? t!"janrain_nonce" = some n from k1, (b1 _ _ hmem).2 (by decide)]
    · have hv2 : ¬ IsV1 y.query := fun h => hv1 (hver.2 h)
      have hin : ∀ k ∈ [t!"response_nonce", t!"op_endpoint"], k ∈ neededSigned (decide (IsV1 x.query)) := by
        simp [neededSigned, hv1]
      obtain ⟨n, t, sa, k1, -⟩ := hv.nonce
      obtain ⟨n', t', sa', k1', -⟩ := hv'.nonce
      rw [nonceIn, if_neg hv1] at k1 ⊢
      rw [nonceIn, if_neg hv2] at k1' ⊢
      simp only at k1 k1'
      have e1 := hval _ (hin t!"response_nonce" (by simp)) n k1
      have hserver : ∀ {q : Dict Str Str} {session : Option Endpoint} {evs : List Ev} {e : Endpoint}, ¬ IsV1 q →
          Confirmed W session q evs e → arg q t!"op_endpoint" = some e.serverUrl := by
        intro q session evs e hn hc
        rw [Confirmed, if_neg hn] at hc
        rcases hc with ⟨c, i, d, -, -, h, -, -, rfl⟩ | ⟨sv, -, -, h, rfl⟩ <;> exact h
      have s1 := hserver hv1 hv.discovery
      have s2 := hserver hv2 hv'.discovery
      have e2 := hval _ (hin t!"op_endpoint" (by simp)) _ s1
      rw [k1, k1'] at e1
      rw [s1, s2] at e2
      simp only [Option.getD_some] at e1 e2
      rw [k1, k1', e1, e2]
  obtain ⟨n, t, sa, k1, k2, -⟩ := hv.nonce
  have hcount := c38_once hC hr hs ha (nonceIn x.query e.serverUrl).2 t sa
  have hle := hsub.countP_le (p := (·.acceptedWith W (nonceIn x.query e.serverUrl).2 t sa))
  have ax : x.acceptedWith W (nonceIn x.query e.serverUrl).2 t sa = true := by
    unfold Completion.acceptedWith
    rw [he]
    simp only
    rw [show nonceIn x.query e.serverUrl = (some n, (nonceIn x.query e.serverUrl).2) from by rw [← k1]]
    simp [k2]
  have ay : y.acceptedWith W (nonceIn x.query e.serverUrl).2 t sa = true := by
    unfold Completion.acceptedWith
    rw [he']
    simp only
    rw [← hnonce, show nonceIn x.query e.serverUrl = (some n, (nonceIn x.query e.serverUrl).2) from by rw [← k1]]
    simp [k2]
  simp only [List.countP_cons, List.countP_nil, ax, ay, if_true] at hle
  omega

/-- where an issued response comes from -/
theorem issued_run {σ : Type} {V : Server.World} {step : σ → Event → σ × Outcome} {view : σ → AssocMap}
    (hf : Faithful V.clock step view) {s : σ} (hs : NonePrivate view s) {hist : List (Server.Env × Call)} {y : Seen}
    (hy : y ∈ (serve V step s hist).1) {r resp : Server.Response} (hc : y.call = .sign r)
    (hr : y.reply = .ok (.response resp)) :
    ∃ s' s'', Server.Prog.run step y.env.now s' (Server.sign V y.env r) = (s'', .ok resp) := by
  obtain ⟨before, after, hsplit⟩ := List.append_of_mem hy
  obtain ⟨s', -, h⟩ := Server.serve_known hf (known_nil V hs) hsplit
  rw [hc, hr] at h
  simp only [Call.prog] at h
  cases hrun : Server.Prog.run step y.env.now s' (Server.sign V y.env r) with
  | mk s'' o =>
    rw [Server.run_bind, hrun] at h
    cases o with
    | error e => simp at h
    | ok resp' =>
      simp only [Server.run_pure, Except.ok.injEq, Reply.response.injEq] at h
      subst h
      exact ⟨s', s'', hrun⟩

/-- **C65** The texts that the provider signed are those of `SignedText`: the signature in a response that it issued is the
    MAC, under a secret of its own, of that text.  (No field may have `sig` in its name between commas.) -/
theorem c65_text {σ : Type} (V : Server.World) (hH : ∀ t k x, V.mac t k x ≠ []) (step : σ → Event → σ × Outcome)
    (view : σ → AssocMap) (hf : Faithful V.clock step view) (s : σ) (hs : NonePrivate view s)
    (hist : List (Server.Env × Call)) (y : Seen) (hy : y ∈ (serve V step s hist).1) (r resp : Server.Response)
    (hc : y.call = .sign r) (hr : y.reply = .ok (.response resp)) (hb : Built V.reg r.fields)
    (hsig : ∀ k v, r.fields.toPostArgs.get? (t!"openid." ++ k) = some v → t!"sig" ∉ splitOn ',' k) :
    ∃ (a : Assoc) (sig text : Str), resp.fields.getArg .openid t!"sig" = .ok (some sig) ∧ SignedText resp.fields text ∧
      sig = toBase64 (V.mac a.assocType a.secret (Utf8.encode text)) := by
  obtain ⟨s', s'', hrun⟩ := issued_run hf hs hy hc hr
  obtain ⟨a, m, hm, hsign⟩ := Authentic.signed_by hf hrun
  have hi := minv_built _ _ hb
  have hmi : MInv m ∧ ∀ k, k ≠ t!"invalidate_handle" →
      m.toPostArgs.get? (t!"openid." ++ k) = r.fields.toPostArgs.get? (t!"openid." ++ k) := by
    rcases hm with rfl | ⟨x, hx⟩
    · exact ⟨hi, fun _ _ => rfl⟩
    · exact Authentic.post_set hi hx
  have hchk := sign_verify V.mac hH a m resp.fields hmi.1 (by
    intro k v hv
    by_cases hk : k = t!"invalidate_handle"
    · subst hk; decide
    · rw [hmi.2 k hk] at hv; exact hsig k v hv) hsign
  obtain ⟨l, hl, -⟩ := Authentic.signed_shape hmi.1 hsign
  have hsg : ∃ o, resp.fields.getArg .openid t!"sig" = .ok o := by
    rw [Msg.getArg] at hl ⊢
    cases hfx : resp.fields.fixNS .openid with
    | error e => rw [hfx] at hl; simp at hl
    | ok n => exact ⟨_, rfl⟩
  obtain ⟨o, ho⟩ := hsg
  obtain ⟨sig, l', text, rfl, e, ht, hs'⟩ := Authentic.checked_text hchk ho hl
  cases e
  exact ⟨a, sig, text, ho, ⟨l, hl, ht⟩, hs'⟩

/-- the fields of an answer -/
def answerList (V : Server.World) (d : Decision) (oid url : Str) (i c : Option Str) : List (Str × Option Str) :=
  [(t!"mode", some t!"id_res"), (t!"return_to", some url),
   (t!"response_nonce", some (Nonce.mkNonce (V.clock.seconds d.env.now).toNat d.env.salt)),
   (t!"op_endpoint", given (serverOf d.request d.serverUrl)), (t!"identity", i),
   (t!"claimed_id", if oid = t!"http://specs.openid.net/auth/2.0" then c else none)]

/-- an issued response and the decision it is about -/
theorem says_fields {σ : Type} {V : Server.World} {step : σ → Event → σ × Outcome} {view : σ → AssocMap}
    (hf : Faithful V.clock step view) {s : σ} (hs : NonePrivate view s) {hist : List (Server.Env × Call)} {y : Seen}
    (hy : y ∈ (serve V step s hist).1) {r resp : Server.Response} (hc : y.call = .sign r)
    (hr : y.reply = .ok (.response resp)) {d : Decision} (hd : Says V d r) :
    ∃ oid url i c l, d.request.message.getOpenIDNamespace = some oid ∧
      oid ∈ [OPENID1_NS, THE_OTHER_OPENID1_NS, OPENID2_NS] ∧ d.request.returnTo = some url ∧ url ≠ [] ∧
      Asserts V.uni d.request d.identity d.claimedId i c ∧
      (MsgV1 d.request.message → (∃ x, i = some x) ∧ given d.claimedId = none) ∧
      (¬ MsgV1 d.request.message → ∃ x, given (serverOf d.request d.serverUrl) = some x) ∧
      resp.fields.getArg .openid t!"signed" = .ok (some l) ∧
      (∀ k v, argsOf (answerList V d oid url i c) k = some v →
        k ∈ splitOn ',' l ∧ resp.fields.toPostArgs.get? (t!"openid." ++ k) = some v) ∧
      (OPENID1_NAMESPACES.contains oid = false → t!"ns" ∈ splitOn ',' l ∧ resp.fields.toPostArgs.get? t!"openid.ns" = some oid) ∧
      (i = none → t!"identity" ∉ splitOn ',' l) ∧
      ((if oid = t!"http://specs.openid.net/auth/2.0" then c else none) = none → t!"claimed_id" ∉ splitOn ',' l) := by
  obtain ⟨r0, h0, hsame⟩ := hd.answer
  obtain ⟨-, oid, url, i, c, ho, hu, hne, ha, hx, hv1, hv2⟩ :=
    answer_exactly V d.env d.request d.serverUrl d.identity d.claimedId r0 h0
  replace hx : Server.Exactly r0.fields oid (argsOf (answerList V d oid url i c)) := hx
  obtain ⟨s', s'', hrun⟩ := issued_run hf hs hy hc hr
  obtain ⟨l, hl, hin, hout, hval⟩ := Authentic.issued_shape hf (minv_built _ _ hd.built) hrun
  have hcover : ∀ k v, '.' ∉ k → ',' ∉ k → k ∉ [t!"assoc_handle", t!"signed", t!"sig", t!"invalidate_handle"] →
      r0.fields.toPostArgs.get? (t!"openid." ++ k) = some v →
      k ∈ splitOn ',' l ∧ resp.fields.toPostArgs.get? (t!"openid." ++ k) = some v := by
    intro k v h1 h2 h3 h4
    rw [← hsame k h1] at h4
    refine ⟨hin k v h2 (by rintro rfl; exact h3 (by simp)) h4, ?_⟩
    rw [hval k h3, h4]
  have habsent : ∀ k, '.' ∉ k → k ∉ [t!"signed", t!"assoc_handle", t!"invalidate_handle"] →
      r0.fields.toPostArgs.get? (t!"openid." ++ k) = none → k ∉ splitOn ',' l := by
    intro k h1 h2 h3 h4
    rcases hout k h4 with h | ⟨n, v, h5, h6⟩
    · exact h2 h
    · rw [splitOn_not_mem _ _ (hd.names n v h5)] at h6
      simp only [List.mem_cons, List.not_mem_nil, or_false] at h6
      subst h6
      rw [hsame k h1, h3] at h5; cases h5
  refine ⟨oid, url, i, c, l, ho, hx.inv.oid _ hx.ns, hu, hne, ha, hv1, fun h => (hv2 h).1, hl, ?_, ?_, ?_, ?_⟩
  · intro k v hk
    have hmem := Honest.argsOf_mem hk
    have hk3 : '.' ∉ k ∧ ',' ∉ k ∧ k ∉ [t!"assoc_handle", t!"signed", t!"sig", t!"invalidate_handle"] := by
      have : k ∈ [t!"mode", t!"return_to", t!"response_nonce", t!"op_endpoint", t!"identity", t!"claimed_id"] :=
        List.mem_map_of_mem (f := Prod.fst) hmem
      have hall : ∀ k ∈ [t!"mode", t!"return_to", t!"response_nonce", t!"op_endpoint", t!"identity", t!"claimed_id"],
          '.' ∉ k ∧ ',' ∉ k ∧ k ∉ [t!"assoc_handle", t!"signed", t!"sig", t!"invalidate_handle"] := by decide
      exact hall k this
    exact hcover k v hk3.1 hk3.2.1 hk3.2.2 (by rw [hx.post, hk]; rfl)
  · intro hn
    exact hcover t!"ns" oid (by decide) (by decide) (by decide) (by
      have e := hx.post t!"ns"
      rw [show argsOf _ t!"ns" = none from by simp [argsOf, answerList], if_pos ⟨rfl, hn⟩] at e
      exact e)
  · rintro rfl
    exact habsent _ (by decide) (by decide) (by rw [hx.post]; simp [argsOf, answerList])
  · intro hcn
    exact habsent _ (by decide) (by decide) (by rw [hx.post]; simp [argsOf, answerList, hcn])

theorem given_ne {o : Option Str} {x : Str} (h : given o = some x) : x ≠ [] ∧ o = some x := by
  rcases o with _ | _ | ⟨c, r⟩ <;> simp_all [given]
  rw [← h]; simp

theorem asserts_ne {U : Url.Uni} {r : Server.CheckIDRequest} {identity claimedId i c : Option Str}
    (h : Asserts U r identity claimedId i c) {x : Str} (hx : i = some x) : x ≠ [] := by
  unfold Asserts at h
  split at h
  · obtain ⟨y, h1, h2, -⟩ := h
    rw [hx] at h2; cases h2
    exact (given_ne h1).1
  · cases hg : given r.identity with
    | some y =>
      rw [hg] at h
      have := h.1
      rw [hx] at this; cases this
      exact (given_ne hg).1
    | none =>
      rw [hg] at h
      rw [h.2.1] at hx; cases hx

/-- **C65** The signed form of a decision says of which version it is, so that it is good for one success
    (`c65_once`). -/
theorem c65_pins {σ : Type} (V : Server.World) (step : σ → Event → σ × Outcome) (view : σ → AssocMap)
    (hf : Faithful V.clock step view) (s : σ) (hs : NonePrivate view s) (hist : List (Server.Env × Call)) (y : Seen)
    (hy : y ∈ (serve V step s hist).1) (r resp : Server.Response) (hc : y.call = .sign r)
    (hr : y.reply = .ok (.response resp)) (d : Decision) (hd : Says V d r) : PinsVersion resp.fields := by
  obtain ⟨oid, url, i, c, l, ho, hoid, hu, hne, ha, hv1, hv2, hl, hin, hns, hi, hcl⟩ := says_fields hf hs hy hc hr hd
  refine ⟨l, hl, ?_⟩
  simp only [List.mem_cons, List.not_mem_nil, or_false] at hoid
  have first : MsgV1 d.request.message → oid ≠ t!"http://specs.openid.net/auth/2.0" →
      (t!"ns" ∈ splitOn ',' l ∨ t!"identity" ∈ splitOn ',' l ∧
        (resp.fields.toPostArgs.get? t!"openid.identity").getD [] ≠ [] ∧ t!"claimed_id" ∉ splitOn ',' l) := fun h hn => by
    obtain ⟨x, rfl⟩ := (hv1 h).1
    have h1 := hin t!"identity" x (by simp [argsOf, answerList])
    exact .inr ⟨h1.1, by
      rw [show resp.fields.toPostArgs.get? t!"openid.identity" = some x from h1.2]
      exact asserts_ne ha rfl, hcl (if_neg hn)⟩
  rcases hoid with rfl | rfl | rfl
  · exact first (.inl ho) (by decide)
  · exact first (.inr ho) (by decide)
  · exact .inl (hns (by decide)).1

/-- **C65** Where the provider signs what its application decided and nothing else: if a completion succeeds, the
    application said yes to a request with this return_to, for the user that the consumer is told of (or a signature is
    forged). -/
theorem c65_decided {σ : Type} (V : Server.World) (step : σ → Event → σ × Outcome) (view : σ → AssocMap)
    (hf : Faithful V.clock step view) (s : σ) (hs : NonePrivate view s) (hist : List (Server.Env × Call))
    (hsay : ∀ y ∈ (serve V step s hist).1, ∀ r, y.call = .sign r → ∃ d, Says V d r)
    {W : Consumer.World} {C : Consumer.Conf} (hmac : V.mac = W.mac) {x : Completion} (hx : x.Ran W C) {e : Endpoint}
    (hok : x.succeeded = some e) (hreach : Reaches V (serve V step s hist).1 e.serverUrl x.events) :
    (∃ y ∈ (serve V step s hist).1, ∃ r d, y.call = .sign r ∧ Says V d r ∧ Decided V d x.query) ∨
    ∃ a, Key V (serve V step s hist).1 e.serverUrl x.events x.query a ∧ Forged W.mac (serve V step s hist).1 a x.query := by
  rcases c65_authentic V step view hf s hs hist hmac hx hok hreach with ⟨f, ⟨y, hy, r, resp, hc, hr, rfl⟩, hvo, -⟩ | h
  · left
    obtain ⟨d, hd⟩ := hsay y hy r hc
    refine ⟨y, hy, r, d, hc, hd, ?_⟩
    obtain ⟨oid, url, i, c, l, ho, hoid, hu, hne, ha, hv1, hv2, hl, hin, hns, hi, hcl⟩ := says_fields hf hs hy hc hr hd
    obtain ⟨m, sl, hv⟩ := succeeded_verified hx hok
    obtain ⟨l1, hl1, hl2, hsame⟩ := hvo.list
    rw [hl] at hl2; cases hl2
    obtain ⟨l2, hl2, -, hneed⟩ := hv.signed
    rw [hl1] at hl2; cases hl2
    -- a field of the answer that is not empty is the query's
    have hfield : ∀ k v, '.' ∉ k → argsOf (answerList V d oid url i c) k = some v → (arg x.query k).getD [] = v := by
      intro k v hd hk
      obtain ⟨h1, h2⟩ := hin k v hk
      rw [hsame k h1 hd, h2]; rfl
    have hfull : ∀ k v, '.' ∉ k → argsOf (answerList V d oid url i c) k = some v → v ≠ [] → arg x.query k = some v := by
      intro k v hd hk hv
      have := hfield k v hd hk
      cases hq : arg x.query k with
      | none => rw [hq] at this; exact absurd this.symm hv
      | some w => rw [hq] at this; exact congrArg some this
    have hopt : ∀ k (o : Option Str), '.' ∉ k → k ∈ neededSigned (decide (IsV1 x.query)) → (∀ v, o = some v → argsOf (answerList V d oid url i c) k = some v) →
        (o = none → k ∉ splitOn ',' l) → (arg x.query k).getD [] = o.getD [] := by
      intro k o hd hk h1 h2
      cases o with
      | some v => exact hfield k v hd (h1 v rfl)
      | none =>
        cases hq : arg x.query k with
        | none => rfl
        | some w => exact absurd (hneed k hk w hq) (h2 rfl)
    have hver : IsV1 x.query ↔ oid ≠ t!"http://specs.openid.net/auth/2.0" := by
      constructor
      · rintro h1 rfl
        obtain ⟨h2, h3⟩ := hns (by decide)
        have := hsame _ h2 (by decide)
        rw [show resp.fields.toPostArgs.get? (t!"openid." ++ t!"ns") = _ from h3] at this
        cases hq : arg x.query t!"ns" with
        | none => rw [hq] at this; simp at this
        | some w =>
          rw [hq] at this
          simp only [Option.getD_some] at this
          subst this
          exact absurd (h1 _ hq) (by decide)
      · intro hn
        have hmv : MsgV1 d.request.message := by
          simp only [List.mem_cons, List.not_mem_nil, or_false] at hoid
          rcases hoid with rfl | rfl | rfl
          · exact .inl ho
          · exact .inr ho
          · exact absurd rfl hn
        obtain ⟨x', rfl⟩ := (hv1 hmv).1
        have h1 := hin t!"identity" x' (by simp [argsOf, answerList])
        exact is_first hv hvo hl h1.1 (by
          rw [show resp.fields.toPostArgs.get? t!"openid.identity" = some x' from h1.2]
          exact asserts_ne ha rfl) (hcl (if_neg hn))
    have hmsg : MsgV1 d.request.message ↔ oid ≠ t!"http://specs.openid.net/auth/2.0" := by
      rw [MsgV1, ho]
      simp only [List.mem_cons, List.not_mem_nil, or_false] at hoid
      rcases hoid with rfl | rfl | rfl <;> decide
    refine ⟨hver.trans hmsg.symm, ?_, ⟨i, c, ha, ?_, ?_⟩, ?_, ?_⟩
    · rw [hu]; exact hfull _ _ (by decide) (by simp [argsOf, answerList]) hne
    · exact hopt _ i (by decide) (by simp [neededSigned]) (by intro v hv; simp [argsOf, answerList, hv]) hi
    · intro hn
      have h2 : oid = t!"http://specs.openid.net/auth/2.0" := Classical.byContradiction fun h => hn (hver.2 h)
      rw [if_pos h2] at hcl
      exact hopt _ c (by decide) (by simp [neededSigned, hn]) (by intro v hv; simp [argsOf, answerList, hv, h2]) hcl
    · intro hn
      exact hfull _ _ (by decide) (by simp [argsOf, answerList]) (Honest.nonce_ne _ _)
    · intro hn
      obtain ⟨w, hw⟩ := hv2 (fun h => hn (hver.2 (hmsg.1 h)))
      obtain ⟨w1, w2⟩ := given_ne hw
      rw [show (given d.serverUrl).or d.request.opEndpoint = some w from w2]
      exact hfull _ _ (by decide) (by simp [argsOf, answerList, hw]) w1
  · exact .inr h

/-- **C65** A positive answer, with any extensions added to it, says what was decided, unless an extension claims to be the
    protocol itself or brings a comma in a name. -/
theorem c65_says (V : Server.World) (d : Decision) (r0 : Server.Response)
    (h0 : d.request.answer V d.env true d.serverUrl d.identity d.claimedId = .ok r0)
    (exts : List (Str × Str × Dict Str Str)) (f : Msg)
    (hadd : exts.foldlM (fun m e => m.addExtension e.1 e.2.1 e.2.2) r0.fields = .ok f)
    (hn : ∀ e ∈ exts, e.1 ∉ [t!"sreg", t!"http://openid.net/signon/1.0", t!"http://openid.net/signon/1.1",
      t!"http://specs.openid.net/auth/2.0"] ∧ ',' ∉ e.2.1 ∧ ∀ k ∈ Dict.keys e.2.2, ',' ∉ k) :
    Says V d { r0 with fields := f } := by
  obtain ⟨-, oid, url, i, c, ho, hu, hne, ha, hx, hv1, hv2⟩ :=
    answer_exactly V d.env d.request d.serverUrl d.identity d.claimedId r0 h0
  replace hx : Server.Exactly r0.fields oid (argsOf (answerList V d oid url i c)) := hx
  have hoid := hx.inv.oid _ hx.ns
  have key : ∀ (exts : List (Str × Str × Dict Str Str)) (m f : Msg), Built V.reg m → m.getOpenIDNamespace = some oid →
      (∀ K, m.args.get? (.bare, K) = none) → (∀ u s, m.namespaces.nsToAlias.get? u = some (.name s) → ',' ∉ s) →
      (∀ u k v, m.args.get? (.uri u, k) = some v → ',' ∉ k) →
      (∀ k, '.' ∉ k → m.toPostArgs.get? (t!"openid." ++ k) = r0.fields.toPostArgs.get? (t!"openid." ++ k)) →
      exts.foldlM (fun m e => m.addExtension e.1 e.2.1 e.2.2) m = .ok f →
      (∀ e ∈ exts, e.1 ∉ [t!"sreg", t!"http://openid.net/signon/1.0", t!"http://openid.net/signon/1.1",
        t!"http://specs.openid.net/auth/2.0"] ∧ ',' ∉ e.2.1 ∧ ∀ k ∈ Dict.keys e.2.2, ',' ∉ k) →
      Says V d { r0 with fields := f } := by
    intro exts
    induction exts with
    | nil =>
      intro m f hb _ hbare hal hk hsame h _
      simp only [List.foldlM_nil, pure_eq_ok, Except.ok.injEq] at h
      subst h
      exact ⟨hb, ⟨r0, h0, hsame⟩, Authentic.names_of (minv_built _ _ hb) hal hbare hk⟩
    | cons e r ih =>
      intro m f hb hns hbare hal hk hsame h hn
      rw [List.foldlM_cons] at h
      obtain ⟨m1, e1, h⟩ := bind_eq_ok.1 h
      obtain ⟨n1, n2, n3⟩ := hn e (by simp)
      simp only [List.mem_cons, List.not_mem_nil, or_false, not_or] at n1
      have hi := minv_built _ _ hb
      have hne : e.1 ≠ oid := by
        rintro rfl
        simp only [List.mem_cons, List.not_mem_nil, or_false] at hoid
        rcases hoid with h | h | h
        · exact n1.2.1 h
        · exact n1.2.2.1 h
        · exact n1.2.2.2 h
      obtain ⟨o1, o2, o3⟩ := Authentic.extension_post hi hns hbare n1.1 hne e1
      obtain ⟨-, k2, -, k4, k5⟩ := Authentic.addExtension_keeps hi n1.1 e1
      refine ih m1 f (.extended _ _ _ _ _ hb e1) o1 o2 ?_ ?_ (fun k hd => (o3 k hd).trans (hsame k hd)) h
        (fun e' he => hn e' (by simp [he]))
      · intro u s hu
        rw [k2, Dict.get?_set] at hu
        split at hu
        · cases hu; exact n2
        · exact hal u s hu
      · intro u k v hv
        by_cases hu : u = e.1
        · subst hu
          rcases k5 k v hv with h | h
          · exact hk _ _ _ h
          · exact n3 k h
        · rw [k4 _ _ (by simpa using hu)] at hv
          exact hk _ _ _ hv
  refine key exts r0.fields f (Authentic.built_answer h0) hx.ns (fun K => hx.only _ _ (by simp)) ?_ ?_ (fun _ _ => rfl) hadd hn
  · intro u s hu
    rw [hx.fresh, Dict.get?_cons] at hu
    split at hu <;> cases hu
  · intro u k v hv
    by_cases hu : u = oid
    · subst hu
      rw [hx.here] at hv
      obtain ⟨_, hk⟩ : ∃ o, (k, o) ∈ answerList V d u url i c := ⟨_, Honest.argsOf_mem hv⟩
      simp only [answerList, List.mem_cons, Prod.mk.injEq, List.not_mem_nil, or_false] at hk
      rcases hk with ⟨rfl, -⟩ | ⟨rfl, -⟩ | ⟨rfl, -⟩ | ⟨rfl, -⟩ | ⟨rfl, -⟩ | ⟨rfl, -⟩ <;> decide
    · rw [hx.only _ _ (by simpa using hu)] at hv; cases hv

/-! ## Non-vacuity -/

/-- an encoded positive answer was signed -/
theorem signed_of_encoded {σ : Type} {V : Server.World} {E : Server.Env} {step : σ → Event → σ × Outcome} {s s' : σ}
    {r : Server.Response} {w : Server.WebResponse} (hn : r.needsSigning = .ok true)
    (h : Server.Prog.run step E.now s (Server.signingEncode V E r) = (s', .ok w)) :
    ∃ resp, Server.Prog.run step E.now s (Server.sign V E r) = (s', .ok resp) := by
  unfold Server.signingEncode at h
  rw [hn] at h
  simp only at h
  split at h
  · simp [Server.Prog.run] at h
  · simp [Server.Prog.run] at h
  · obtain ⟨s1, resp, h1, h2⟩ := Server.run_bind_ok _ _ h
    simp only [Server.run_done, Prod.mk.injEq] at h2
    exact ⟨resp, by rw [h1, h2.1]⟩

-- an honest run without a shared association: what the provider's application decided is what the consumer was told,
-- or the toy MAC was forged
example : ∃ (hist : List (Server.Env × Call)) (x : Completion) (e : Endpoint),
    hist.length = 2 ∧ x.Ran cworld0 cconf0 ∧ x.succeeded = some e ∧ e = endpoint0 ∧
    Reaches sworld0 (serve sworld0 (MemStore.keptStep clock0) MemStore.keptInit hist).1 e.serverUrl x.events ∧
    (∀ y ∈ (serve sworld0 (MemStore.keptStep clock0) MemStore.keptInit hist).1, ∀ r, y.call = .sign r →
      ∃ d, Says sworld0 d r) ∧
    (∃ f, Issued (serve sworld0 (MemStore.keptStep clock0) MemStore.keptInit hist).1 f ∧ PinsVersion f) ∧
    NonePrivate MemStore.keptView MemStore.keptInit ∧ (∀ t k x, sworld0.mac t k x ≠ []) ∧ sworld0.mac = cworld0.mac := by
  obtain ⟨s1, req, h, ha⟩ := begunShared0
  obtain ⟨url, hu, hq⟩ := c41_asked (V := sworld0) (Es := senv0) (E2 := cenv0) rfl
    (by intro t k x; simp [sworld0, smac0]) (by intro alias uri h; simp [cworld0, sworld0] at h)
    (by intro alias uri h; simp [sworld0] at h) h askable0
    returnable0 false (c30_memory_store clock0) (fun _ _ _ _ => ⟨_, rfl⟩) MemStore.keptInit (by
      intro a h; rw [ha] at h; cases h
      refine ⟨by decide, by decide +kernel, fun b hb => ?_⟩
      have : MemStore.keptView MemStore.keptInit t!"http://localhost/|normal" cassoc0.handle = none := rfl
      rw [this] at hb; cases hb) (by decide) (by decide) (by decide)
  obtain ⟨r, resp, w, st', b, -, hans, hsign, hm, hv, hv', ⟨q', hb⟩, hw⟩ := hq (parameters url) (Dict.WF_ofPairs _) (fun _ => rfl)
  obtain ⟨body, hbody⟩ := hw q' hb
  obtain ⟨n, -, -, hi, hl, -⟩ := hm
  obtain ⟨r2, resp2, kv, sta', hdec, hrun, henc, hr⟩ := hbody _ (Dict.WF_ofPairs _) (fun _ => rfl) senv0 none st' hv (by
    unfold expired; rw [hi, hl]; simp [Server.Env.seconds]; decide) hv'
  obtain ⟨s2, m, signed, hd⟩ := hr (.bool true)
  have hns : resp.needsSigning = .ok true := by
    obtain ⟨-, oid, url, i, c, ho, hu, hne, ha, hx, -⟩ := answer_exactly _ _ _ _ _ _ _ hans
    rw [Server.Response.needsSigning, hx.getArg]
    simp [argsOf, Server.lift]
  obtain ⟨resp1, hs1⟩ := signed_of_encoded hns hsign
  have hserve : (serve sworld0 (MemStore.keptStep clock0) MemStore.keptInit
      [(senv0, .sign resp), (senv0, .checkAuth r2)]).1 =
      [⟨senv0, .sign resp, .ok (.response resp1)⟩, ⟨senv0, .checkAuth r2, .ok (.response resp2)⟩] := by
    simp only [serve, Call.prog, Server.run_bind, hs1, Server.run_pure, hrun]
  refine ⟨[(senv0, .sign resp), (senv0, .checkAuth r2)], ⟨cenv0, s1, q', _, _, _⟩, _, rfl, ⟨?_, hd⟩, rfl, ?_, ?_, ?_, ?_, ?_, ?_, ?_⟩
  · exact hb.1
  · rfl
  · rw [hserve]
    intro body' o hp _
    rw [ha] at hp
    simp only [cconf0, if_true, List.cons_append, List.nil_append, List.append_nil, List.mem_cons, List.not_mem_nil, or_false, reduceCtorEq, false_or, Consumer.Ev.post.injEq] at hp
    obtain ⟨-, rfl, rfl⟩ := hp
    exact ⟨senv0, senv0, none, _, r2, resp2, kv, Dict.WF_ofPairs _, fun _ => rfl, hdec, by simp, henc, rfl⟩
  · rw [hserve]
    intro y hy r' hc
    simp only [List.mem_cons, List.not_mem_nil, or_false] at hy
    rcases hy with rfl | rfl
    · cases hc
      exact ⟨⟨senv0, r, none, none, none⟩, c65_says sworld0 ⟨senv0, r, none, none, none⟩ resp hans [] resp.fields rfl (by simp)⟩
    · cases hc
  · refine ⟨resp1.fields, ⟨⟨senv0, .sign resp, .ok (.response resp1)⟩, by rw [hserve]; simp, resp, resp1, rfl, rfl, rfl⟩, ?_⟩
    exact c65_pins sworld0 (MemStore.keptStep clock0) MemStore.keptView (c30_memory_store clock0) MemStore.keptInit
      (fun _ => rfl) [(senv0, .sign resp), (senv0, .checkAuth r2)] _ (by rw [hserve]; exact List.mem_cons_self) resp resp1
      rfl rfl ⟨senv0, r, none, none, none⟩
      (c65_says sworld0 ⟨senv0, r, none, none, none⟩ resp hans [] resp.fields rfl (by simp))
  · intro h; rfl
  · intro t k x; simp [sworld0, smac0]
  · rfl

end Props
