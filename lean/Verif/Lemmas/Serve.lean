import Verif.Spec.Serve
import Verif.Lemmas.HonestAsk
import Verif.Props.ServerAssociate
import Verif.Props.ServerEncode
import Verif.Props.Cryptutil
/-! # Lemmas on the replies of an endpoint -/

namespace Server
open Py Message Association Cryptutil DH Store Spec KVForm

/-- a message of plain fields in key-value form, and what is read in it -/
theorem kv_tells {m : Msg} {oid : Str} {d : Str → Option Str} (h : Carries m oid d)
    (hoid : oid ∈ [OPENID1_NS, THE_OTHER_OPENID1_NS, OPENID2_NS])
    (hc : ∀ k v, d k = some v → Clean k ∧ ':' ∉ k ∧ '\n' ∉ v) {v1 : Prop} (hv : v1 ↔ oid ≠ OPENID2_NS) :
    ∃ kv, m.toKVForm = .ok kv ∧ Tells kv v1 d := by
  obtain ⟨A, e, hA, hg⟩ := toArgs_get h
  have hne : OPENID1_NAMESPACES.contains oid = false ↔ ¬ v1 := by
    rw [hv]
    simp only [List.mem_cons, List.not_mem_nil, or_false] at hoid
    rcases hoid with rfl | rfl | rfl <;> decide
  have hoid2 : ¬ v1 → oid = OPENID2_NS := by rw [hv]; simp
  have hclean : ∀ k v, A.get? k = some v → Clean k ∧ ':' ∉ k ∧ '\n' ∉ v := by
    intro k v hk
    rw [hg] at hk
    cases hd : d k with
    | some x => rw [hd] at hk; simp at hk; subst hk; exact hc _ _ hd
    | none =>
      rw [hd] at hk; simp only [Option.none_or] at hk
      split at hk
      · next hn =>
        simp only [Option.some.injEq] at hk
        subst hk
        refine ⟨by rw [hn.1]; exact ⟨by decide, by decide⟩, by rw [hn.1]; decide, ?_⟩
        rw [hoid2 (hne.1 hn.2)]; decide
      · cases hk
  have hperm := perm_sortBy pairLe A
  obtain ⟨out, ho⟩ : ∃ out, dictToKV A = .ok out := by
    rw [dictToKV]
    apply (Props.c02_accepts_iff false _).2
    intro p hp
    obtain ⟨h1, h2, h3⟩ := hclean _ _ (Dict.get?_of_mem _ hA p.1 p.2 ((hperm.mem_iff).1 hp))
    exact ⟨h1.1, h2, h3, by simp⟩
  refine ⟨out, by rw [Msg.toKVForm, e]; exact ho, ?_⟩
  have hp := kvToSeq_seqToKV ho
  have hmap : ((sortBy pairLe A).map fun p => (strip p.1, strip p.2)) = (sortBy pairLe A).map fun p => (p.1, strip p.2) := by
    apply List.map_congr_left
    intro p hp'
    have := (hclean p.1 p.2 (Dict.get?_of_mem A hA _ _ (hperm.mem_iff.1 hp'))).1.2
    rw [this]
  rw [hmap] at hp
  have hwf : Dict.WF ((sortBy pairLe A).map fun p => (p.1, strip p.2)) := by
    rw [Dict.WF, Dict.keys, List.map_map]
    exact (List.Perm.nodup_iff (hperm.map _)).2 hA
  refine ⟨_, ?_, hwf, fun k x => ?_⟩
  · simp only [kvToDict, hp, ok_bind, pure_eq_ok]
    rw [Dict.ofPairs_eq_self _ hwf]
  · have : Dict.get? ((sortBy pairLe A).map fun p => (p.1, strip p.2)) k = some x ↔
        ∃ y, A.get? k = some y ∧ x = strip y := by
      constructor
      · intro hx
        obtain ⟨p, hp', he⟩ := List.mem_map.1 (Dict.get?_mem _ _ _ hx)
        simp only [Prod.mk.injEq] at he
        obtain ⟨rfl, rfl⟩ := he
        exact ⟨p.2, Dict.get?_of_mem A hA _ _ (hperm.mem_iff.1 hp'), rfl⟩
      · rintro ⟨y, hy, rfl⟩
        exact Dict.get?_of_mem _ hwf _ _ (List.mem_map.2 ⟨(k, y), hperm.mem_iff.2 (Dict.get?_mem _ _ _ hy), rfl⟩)
    rw [this]
    constructor
    · rintro ⟨y, hy, rfl⟩
      refine ⟨y, rfl, ?_⟩
      rw [hg] at hy
      cases hd : d k with
      | some x => rw [hd] at hy; simp at hy; subst hy; exact .inl rfl
      | none =>
        rw [hd] at hy; simp only [Option.none_or] at hy
        split at hy
        · next hn =>
          simp only [Option.some.injEq] at hy; subst hy
          exact .inr ⟨rfl, hn.1, hne.1 hn.2, hoid2 (hne.1 hn.2)⟩
        · cases hy
    · rintro ⟨y, rfl, hy⟩
      refine ⟨y, ?_, rfl⟩
      rw [hg]
      rcases hy with hy | ⟨h1, h2, h3, h4⟩
      · rw [hy]; rfl
      · rw [h1, if_pos ⟨h2, hne.2 h3⟩, h4, hoid2 h3]; rfl

/-- a line end in a value -/
theorem kv_fails {m : Msg} {oid : Str} {d : Str → Option Str} (h : Carries m oid d) {k v : Str} (hk : d k = some v)
    (hv : '\n' ∈ v) : m.toKVForm = .error .kvFormError := by
  obtain ⟨A, e, hA, hg⟩ := toArgs_get h
  rw [Msg.toKVForm, e]
  simp only [ok_bind]
  have hperm := perm_sortBy pairLe A
  cases ho : dictToKV A with
  | error e => rw [seqToKV_error ho]
  | ok out =>
    exfalso
    have hmem := hperm.mem_iff.2 (Dict.get?_mem _ k v (by rw [hg, hk]; rfl))
    exact ((Props.c02_accepts_iff false _).1 ⟨out, ho⟩ _ hmem).2.2.1 hv

section
variable {σ : Type} {step : σ → Event → σ × Outcome}

theorem display_done (now : Nat) (s : σ) (o : Except Err WebResponse) :
    Prog.run step now s (display (.done o)) =
      (s, match o with
        | .ok w => .ok (.web w)
        | .error .encoding => .ok .failed
        | .error .alreadySigned => .ok .failed
        | .error e => .error e) := by
  cases o with
  | ok w => rfl
  | error e => cases e <;> rfl

/-- a body in key-value form, as a page -/
def pageOf : Except PyErr Str → Except Err Page
  | .ok kv => .ok (.web ⟨200, none, kv⟩)
  | .error e => .error (.py e)

/-- a response to a direct request is not signed -/
theorem direct_encode (W : World) (E : Env) (s : σ) (r : Response) {oid : Str} {d : Str → Option Str}
    (hc : Carries r.fields oid d) (hd : d t!"mode" = none) :
    signingEncode W E r = .done (encode r) := by
  have : r.needsSigning = .ok false := by
    unfold Response.needsSigning
    rw [hc.args, hd]; rfl
  unfold signingEncode
  rw [this]

theorem display_direct (W : World) (E : Env) (s : σ) (r : Response) {oid : Str} {d : Str → Option Str}
    (hc : Carries r.fields oid d) (hd : d t!"mode" = none) (hr : ∀ c, r.request ≠ .checkId c) (now : Nat) :
    Prog.run step now s (display (signingEncode W E r)) = (s, pageOf r.fields.toKVForm) := by
  rw [direct_encode W E s r hc hd, display_done]
  have hb : browserModes.contains r.request.mode = false := by
    cases h : r.request with
    | checkAuth _ => rfl
    | associate _ => rfl
    | checkId c => exact absurd h (hr c)
  have he : encode r = (lift r.fields.toKVForm).map fun kv => ⟨200, none, kv⟩ := by
    unfold encode Response.whichEncoding
    rw [if_neg (by rw [hb]; decide)]
    simp only [ok_bind]
    cases r.fields.toKVForm <;> rfl
  rw [he]
  cases r.fields.toKVForm <;> rfl

end

theorem getMessageSignature_error {H : Mac} {a : Assoc} {m : Msg} {oid : Str} (ho : m.getOpenIDNamespace = some oid)
    {e : PyErr} (h : a.getMessageSignature H m = .error e) : e.isValueError = true := by
  rw [Assoc.getMessageSignature] at h
  rcases bind_eq_error.1 h with h | ⟨ps, -, h⟩
  · rw [makePairs] at h
    simp only [Msg.getArg, Msg.fixNS, ho, ok_bind, pure_eq_ok] at h
    split at h
    · simp at h; subst h; rfl
    · simp at h; subst h; rfl
    · simp at h
  · rcases bind_eq_error.1 h with h | ⟨_, -, h⟩
    · rw [Assoc.sign] at h
      rcases bind_eq_error.1 h with h | ⟨_, -, h⟩
      · rw [seqToKV_error h]; rfl
      · split at h
        · simp at h
        · simp at h; subst h; rfl
    · simp at h

/-- checking a signature goes wrong only as `verify` expects -/
theorem checkMessageSignature_error {H : Mac} {a : Assoc} {m : Msg} {oid : Str} (ho : m.getOpenIDNamespace = some oid)
    {e : PyErr} (h : a.checkMessageSignature H m = .error e) : e.isValueError = true := by
  rw [Assoc.checkMessageSignature] at h
  simp only [Msg.getArg, Msg.fixNS, ho, ok_bind, pure_eq_ok] at h
  split at h
  · simp at h; subst h; rfl
  · simp at h; subst h; rfl
  · rcases bind_eq_error.1 h with h | ⟨_, -, h⟩
    · exact getMessageSignature_error ho h
    · simp at h

section
variable {σ : Type} {step : σ → Event → σ × Outcome} {view : σ → AssocMap} {W : World} {E : Env}
  (hf : Faithful W.clock step view) (hw : NeverFails step)
include hf hw

theorem verify_runs (s : σ) (k : Str) {m : Msg} {oid : Str} (ho : m.getOpenIDNamespace = some oid) :
    ∃ s' b, Prog.run step E.now s (verify W E k m) = (s', .ok b) ∧ Sub (view s') (view s) ∧
      (∀ u h, u ≠ dumbKey → Alive W E (view s) u h → Alive W E (view s') u h) ∧
      (b = true ↔ ∃ a, view s dumbKey k = some a ∧ ¬ expired (E.seconds W) a ∧
        a.checkMessageSignature W.mac m = .ok true) := by
  obtain ⟨s1, a, h1⟩ := Honest.get_runs (E := E) hf hw s k true true
  have hkeep : ∀ u h, u ≠ dumbKey → Alive W E (view s) u h → Alive W E (view s1) u h := by
    intro u h hu hal
    have := h1
    rw [getAssociation] at this
    obtain ⟨s2, r2, k1, k2⟩ := run_bind_ok _ _ this
    obtain ⟨hfd, -⟩ := run_fetch hf k1
    obtain ⟨a0, p1, p2⟩ := hal
    have h2 : view s2 u h = some a0 := by
      rcases hfd u h with e | ⟨-, a', e1, e2⟩
      · rw [e, p1]
      · rw [p1] at e1; cases e1; exact absurd e2 p2
    cases r2 with
    | none =>
      simp only [keepOrDrop, run_pure, Prod.mk.injEq] at k2
      exact ⟨a0, by rw [← k2.1]; exact h2, p2⟩
    | some a2 =>
      rw [keepOrDrop] at k2
      split at k2
      · split at k2
        · obtain ⟨s3, ⟨⟩, k3, k4⟩ := run_bind_ok _ _ k2
          simp only [run_pure, Prod.mk.injEq] at k4
          rw [← k4.1]
          rcases run_drop hf k3 with ⟨-, hv⟩ | ⟨e, he, -⟩
          · exact ⟨a0, by rw [hv]; simp only [storeKey, if_true]; rw [if_neg (by simp [hu])]; exact h2, p2⟩
          · cases he
        · simp only [run_pure, Prod.mk.injEq] at k2
          exact ⟨a0, by rw [← k2.1]; exact h2, p2⟩
      · simp only [run_pure, Prod.mk.injEq] at k2
        exact ⟨a0, by rw [← k2.1]; exact h2, p2⟩
  obtain ⟨g0, g⟩ := run_getAssociation hf rfl rfl h1
  obtain ⟨g1, g2, g3⟩ := g a rfl
  have hrun : ∃ b, Prog.run step E.now s1 (checkWith W m a) = (s1, .ok b) := by
    cases a with
    | none => exact ⟨false, rfl⟩
    | some a =>
      rw [checkWith]
      split
      · exact ⟨_, rfl⟩
      · next e he => rw [if_pos (checkMessageSignature_error ho he)]; exact ⟨_, rfl⟩
  obtain ⟨b, hb⟩ := hrun
  have hv : Prog.run step E.now s (verify W E k m) = (s1, .ok b) := by
    rw [verify, run_bind, h1]; exact hb
  obtain ⟨-, v2, v3⟩ := run_verify hf rfl rfl hv
  refine ⟨s1, b, hv, g0, hkeep, ?_⟩
  constructor
  · rintro rfl; exact v2 rfl
  · rintro ⟨a0, p1, p2, p3⟩; exact v3 a0 p1 p2 p3 b rfl

/-- what a check_authentication request is answered -/
theorem answers (s : σ) (r : CheckAuthRequest) {oid : Str} (hs : r.signed.getOpenIDNamespace = some oid)
    (hns : r.message.getOpenIDNamespace = some oid) (hoid : oid ∈ [OPENID1_NS, THE_OTHER_OPENID1_NS, OPENID2_NS]) :
    ∃ s' f valid inv, Prog.run step E.now s (r.answer W E) = (s', .ok ⟨.checkAuth r, f⟩) ∧
      Exactly f oid (argsOf [(t!"is_valid", some (if valid = true then t!"true" else t!"false")),
        (t!"invalidate_handle", inv)]) ∧
      (valid = true ↔ ∃ a, view s dumbKey r.assocHandle = some a ∧ ¬ expired (E.seconds W) a ∧
        a.checkMessageSignature W.mac r.signed = .ok true) ∧
      (∀ h, inv = some h ↔ given r.invalidateHandle = some h ∧ ¬ Alive W E (view s) normalKey h) := by
  obtain ⟨s1, valid, h1, hsub, hkeep, hval⟩ := verify_runs hf hw s r.assocHandle hs
  obtain ⟨s2, h2⟩ := Honest.drop_runs (E := E) hw s1 (storeKey true) r.assocHandle
  obtain ⟨f0, hf0⟩ := new_can hoid
  have hnew : Response.new (.checkAuth r) = .ok ⟨.checkAuth r, f0⟩ := by
    rw [Response.new]
    show (lift (Msg.new r.message.getOpenIDNamespace) >>= _) = _
    rw [hns, hf0]; rfl
  have x0 := new_exactly hf0
  have x0' : Exactly f0 oid (argsOf []) := x0.congr fun _ => rfl
  obtain ⟨f1, e1, -⟩ := x0.can t!"is_valid" (if valid = true then t!"true" else t!"false")
  have x1 := x0'.setNew (by simp) e1
  have hset : Response.set ⟨.checkAuth r, f0⟩ t!"is_valid" (if valid = true then t!"true" else t!"false") =
      .ok ⟨.checkAuth r, f1⟩ := by
    rw [Response.set, e1]; rfl
  have hsub2 := (drop_sub hf h2).trans hsub
  have hkeep2 : ∀ h, Alive W E (view s) normalKey h → Alive W E (view s2) normalKey h := by
    intro h hal
    obtain ⟨a0, p1, p2⟩ := hkeep normalKey h (Ne.symm dumb_ne_normal) hal
    rcases run_drop hf h2 with ⟨-, hv⟩ | ⟨e, he, -⟩
    · refine ⟨a0, ?_, p2⟩
      rw [hv]; simp only [storeKey, if_true]
      rw [if_neg (by simp [Ne.symm dumb_ne_normal])]; exact p1
    · cases he
  have head : ∀ {s' o}, Prog.run step E.now s2 (CheckAuthRequest.reportHandle W E ⟨.checkAuth r, f1⟩ r.invalidateHandle)
      = (s', o) → Prog.run step E.now s (r.answer W E) = (s', o) := by
    intro s' o hrep
    rw [CheckAuthRequest.answer, run_bind, h1]
    simp only
    rw [run_bind, invalidate, h2]
    simp only
    rw [run_bind, hnew]
    simp only [run_done]
    rw [run_bind]
    simp only [run_done]
    rw [hset]
    exact hrep
  rcases hi : r.invalidateHandle with _ | _ | ⟨ch, h⟩
  · rw [hi] at head
    exact ⟨s2, f1, valid, none, head (o := .ok ⟨.checkAuth r, f1⟩) rfl, x1.skip (by simp), hval, by simp [given]⟩
  · rw [hi] at head
    exact ⟨s2, f1, valid, none, head (o := .ok ⟨.checkAuth r, f1⟩) rfl, x1.skip (by simp), hval, by simp [given]⟩
  · rw [hi] at head
    obtain ⟨s3, a', h3⟩ := Honest.get_runs (E := E) hf hw s2 (ch :: h) false true
    obtain ⟨-, g'⟩ := run_getAssociation hf rfl rfl h3
    obtain ⟨q1, q2, -⟩ := g' a' rfl
    cases a' with
    | some a' =>
      obtain ⟨p1, p2⟩ := q1 a' rfl
      refine ⟨s3, f1, valid, none, head (o := .ok ⟨.checkAuth r, f1⟩) ?_, x1.skip (by simp), hval, ?_⟩
      · rw [CheckAuthRequest.reportHandle, run_bind, h3]; rfl
      · intro x
        simp only [given, Option.some.injEq, reduceCtorEq, false_iff, not_and, Classical.not_not]
        rintro rfl
        exact ⟨a', hsub2 _ _ _ p1, p2 rfl⟩
    | none =>
      obtain ⟨f2, e2, -⟩ := (x1.can t!"invalidate_handle" (ch :: h))
      have hset2 : Response.set ⟨.checkAuth r, f1⟩ t!"invalidate_handle" (ch :: h) = .ok ⟨.checkAuth r, f2⟩ := by
        rw [Response.set, e2]; rfl
      refine ⟨s3, f2, valid, some (ch :: h), head (o := .ok ⟨.checkAuth r, f2⟩) ?_, x1.setNew (by simp) e2, hval, ?_⟩
      · rw [CheckAuthRequest.reportHandle, run_bind, h3]
        simp only [run_done, hset2]
      · intro x
        simp only [given, Option.some.injEq]
        constructor
        · rintro rfl
          refine ⟨rfl, fun hal => ?_⟩
          obtain ⟨a0, p1, p2⟩ := hkeep2 _ hal
          exact p2 (q2 rfl a0 p1)
        · exact fun h => h.1

end

/-! ## associate -/

theorem sharedSecret_ok {L : Lib} {d : DiffieHellman} {k : Str} (h : KeyOk L d k) :
    ∃ y, base64ToLong k = .ok y ∧ d.getSharedSecret L k = .ok (L.sharedBytes d.p (y ^ d.priv % d.p)) := by
  obtain ⟨b, bs, h1, h2⟩ := h
  have hy : base64ToLong k = bytesToInt (b :: bs) := by rw [base64ToLong, fromBase64, h1]; rfl
  refine ⟨_, hy, ?_⟩
  rw [DiffieHellman.getSharedSecret, hy]
  show (if L.okPub d.p d.g _ = true then _ else _) = _
  rw [if_pos (h2 _ rfl)]; rfl

theorem sharedSecret_error {L : Lib} {d : DiffieHellman} {k : Str} (h : ¬ KeyOk L d k) :
    d.getSharedSecret L k = .error .valueError := by
  rw [DiffieHellman.getSharedSecret]
  cases hy : base64ToLong k with
  | error e => rw [base64ToLong_error hy]; rfl
  | ok y =>
    simp only [ok_bind]
    rw [if_neg]; · rfl
    intro hp
    apply h
    rw [base64ToLong, fromBase64] at hy
    obtain ⟨raw, h1, h2⟩ := bind_eq_ok.1 hy
    cases raw with
    | nil => cases h2
    | cons b bs =>
      refine ⟨b, bs, h1, fun y' hy' => ?_⟩
      rw [h2] at hy'; cases hy'; exact hp

theorem session_answers {W : World} {E : Env} (hz : Sized W E) {s : Session} {ty : Str} (hfit : SessionFits s.sessionType ty)
    {n : Nat} (hn : ty = t!"HMAC-SHA1" ∧ n = 20 ∨ ty = t!"HMAC-SHA256" ∧ n = 32) (hk : SessionOk W.lib s) :
    ∃ kvs, s.answer W (E.secret n) = .ok kvs := by
  cases s with
  | plain => exact ⟨_, rfl⟩
  | dh b d k =>
    obtain ⟨y, -, hs⟩ := sharedSecret_ok hk
    obtain ⟨z, hz1, -⟩ := Props.c03_fix_btwoc _ (hz.shared d.p (y ^ d.priv % d.p))
    obtain ⟨pub, hpub, -⟩ := Props.c04_long d.publicNumber
    have hb : Base64.decode (toBase64 (E.secret n)) = .ok (E.secret n) := Props.c04_base64 _
    have hlen : (E.secret n).length = ((if b = true then W.sha256 else W.sha1) z).length := by
      rw [hz.secret]
      cases b
      · simp only [Session.sessionType, SessionFits] at hfit
        rcases hn with ⟨rfl, rfl⟩ | ⟨rfl, rfl⟩
        · simp [hz.sha1]
        · simp at hfit
      · simp only [Session.sessionType, SessionFits] at hfit
        rcases hn with ⟨rfl, rfl⟩ | ⟨rfl, rfl⟩
        · simp at hfit
        · simp [hz.sha256]
    rw [Session.answer, DiffieHellman.xorSecret, hs]
    simp only [ok_bind]
    rw [hz1]
    simp only [ok_bind]
    rw [hb]
    simp only [ok_bind]
    rw [strxor, if_neg (by simpa using hlen)]
    simp only [ok_bind, pure_eq_ok, lift]
    rw [DiffieHellman.publicKey, hpub]
    exact ⟨_, rfl⟩

theorem session_fails {W : World} {s : Session} {x : Bytes} (hk : ¬ SessionOk W.lib s) :
    s.answer W x = .error (.py .valueError) := by
  cases s with
  | plain => exact absurd trivial hk
  | dh b d k =>
    rw [Session.answer, DiffieHellman.xorSecret, sharedSecret_error hk]; rfl

theorem create_runs' {σ : Type} {step : σ → Event → σ × Outcome} {view : σ → AssocMap} {W : World} {E : Env}
    (hf : Faithful W.clock step view) (hw : NeverFails step) (s : σ) (dumb : Bool) {ty : Str}
    (ht : ty = t!"HMAC-SHA1" ∨ ty = t!"HMAC-SHA256") :
    ∃ s' b, Prog.run step E.now s (createAssociation W E dumb ty) = (s', .ok b) ∧ Makes W E b ∧ b.assocType = ty ∧
      view s' = (fun u k => if u = storeKey dumb ∧ k = b.handle then some b else view s u k) := by
  obtain ⟨b, hb⟩ := Honest.new_runs (V := W) (E := E) ht
  obtain ⟨m1, m2⟩ := newAssociation_ok hb
  obtain ⟨s1, h1⟩ := Honest.put_runs (E := E) hw s (storeKey dumb) b (by rw [m2]; exact ht)
  refine ⟨s1, b, ?_, m1, m2, ?_⟩
  · rw [createAssociation, hb]
    simp only
    rw [run_bind, h1]; rfl
  · rcases run_put hf h1 with ⟨-, hv⟩ | ⟨e, he, -⟩
    · exact hv
    · cases he

theorem associate_answers {W : World} {E : Env} {r : AssociateRequest} {a : Assoc} {oid : Str}
    (hns : r.message.getOpenIDNamespace = some oid) (hoid : oid ∈ [OPENID1_NS, THE_OTHER_OPENID1_NS, OPENID2_NS]) :
    r.answer W E a = .error (.py .valueError) ∧ r.session.answer W a.secret = .error (.py .valueError) ∨
    (∃ resp, r.answer W E a = .ok resp) ∧ (∃ kvs, r.session.answer W a.secret = .ok kvs) ∨
    (∃ e, r.session.answer W a.secret = .error e ∧ e ≠ .py .valueError) := by
  obtain ⟨f0, hf0⟩ := new_can hoid
  have hnew : Response.new (.associate r) = .ok ⟨.associate r, f0⟩ := by
    rw [Response.new]
    show (lift (Msg.new r.message.getOpenIDNamespace) >>= _) = _
    rw [hns, hf0]; rfl
  have x0 := new_exactly hf0
  obtain ⟨f1, e1, x1⟩ := x0.update [(t!"expires_in", intToStr (a.getExpiresIn (E.seconds W))), (t!"assoc_type", r.assocType),
    (t!"assoc_handle", a.handle)]
  have hup : ∀ (f f' : Msg) kvs, f.updateArgs .openid kvs = .ok f' →
      Response.update ⟨.associate r, f⟩ kvs = .ok ⟨.associate r, f'⟩ := by
    intro f f' kvs h; rw [Response.update, h]; rfl
  have hpre : r.answer W E a = (do
      let kvs ← r.session.answer W a.secret
      let resp ← Response.update ⟨.associate r, f1⟩ kvs
      if r.session.sessionType = t!"no-encryption" ∧ r.message.isOpenID1 then return resp
      else resp.set t!"session_type" r.session.sessionType) := by
    rw [AssociateRequest.answer, hnew]
    simp only [ok_bind]
    rw [hup _ _ _ e1]; rfl
  rw [hpre]
  cases hk : r.session.answer W a.secret with
  | error e =>
    by_cases he : e = .py .valueError
    · subst he; exact .inl ⟨rfl, rfl⟩
    · exact .inr (.inr ⟨e, rfl, he⟩)
  | ok kvs =>
    refine .inr (.inl ⟨?_, kvs, rfl⟩)
    obtain ⟨f2, e2, x2⟩ := x1.update kvs
    simp only [ok_bind]
    rw [hup _ _ _ e2]
    simp only [ok_bind]
    split
    · exact ⟨_, rfl⟩
    · obtain ⟨f3, e3, -⟩ := x2.can t!"session_type" r.session.sessionType
      rw [Response.set, e3]
      exact ⟨_, rfl⟩

theorem unsupported_answers {r : AssociateRequest} (text : Str) (a s : Option Str)
    (hns : r.message.getOpenIDNamespace = some OPENID2_NS) : ∃ resp, r.answerUnsupported text a s = .ok resp := by
  obtain ⟨f0, hf0⟩ := new_can (oid := OPENID2_NS) (by decide)
  have hnew : Response.new (.associate r) = .ok ⟨.associate r, f0⟩ := by
    rw [Response.new]
    show (lift (Msg.new r.message.getOpenIDNamespace) >>= _) = _
    rw [hns, hf0]; rfl
  have x0 := new_exactly hf0
  have hset : ∀ (f f' : Msg) k v, f.setArg .openid k v = .ok f' →
      Response.set ⟨.associate r, f⟩ k v = .ok ⟨.associate r, f'⟩ := by
    intro f f' k v h; rw [Response.set, h]; rfl
  have htr : ∀ (f : Msg) d k (v : Option Str), Exactly f OPENID2_NS d → ∃ f' d', Exactly f' OPENID2_NS d' ∧
      Response.setTruthy ⟨.associate r, f⟩ k v = .ok ⟨.associate r, f'⟩ := by
    intro f d k v h
    rw [Response.setTruthy]
    split
    · obtain ⟨f', e, x⟩ := h.can k (v.getD [])
      exact ⟨f', _, x, hset _ _ _ _ e⟩
    · exact ⟨f, d, h, rfl⟩
  obtain ⟨f1, e1, x1⟩ := x0.can t!"error_code" t!"unsupported-type"
  obtain ⟨f2, e2, x2⟩ := x1.can t!"error" text
  obtain ⟨f3, d3, x3, e3⟩ := htr f2 _ t!"assoc_type" a x2
  obtain ⟨f4, d4, x4, e4⟩ := htr f3 _ t!"session_type" s x3
  rw [AssociateRequest.answerUnsupported, if_neg (by rw [Msg.isOpenID1, hns]; decide), hnew]
  simp only [ok_bind]
  rw [hset _ _ _ _ e1]
  simp only [ok_bind]
  rw [hset _ _ _ _ e2]
  simp only [ok_bind]
  rw [e3]
  simp only [ok_bind]
  exact ⟨_, e4⟩

end Server
