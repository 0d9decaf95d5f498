import Verif.Spec.Authentic
import Verif.Lemmas.HonestAsk
import Verif.Lemmas.MessageNs
import Verif.Props.ServerAuth
/-! # Lemmas for C65 -/

namespace Authentic
open Py Message Association Cryptutil Store Discover Spec
open Server (Exactly carries_of CheckAuthRequest)

/-- equal texts have equal fields -/
theorem same_fields {l l' text : Str} {v v' : Str → Str}
    (h : KVForm.seqToKV false ((splitOn ',' l).map fun k => (k, v k)) = .ok text)
    (h' : KVForm.seqToKV false ((splitOn ',' l').map fun k => (k, v' k)) = .ok text) :
    l = l' ∧ ∀ k ∈ splitOn ',' l, v k = v' k := by
  have hp := Props.c02_injective false false _ _ _ h h'
  have hfst := congrArg (List.map Prod.fst) hp
  simp only [List.map_map, Function.comp_def, List.map_id'] at hfst
  have hl : l = l' := by rw [← join_splitOn ',' l, ← join_splitOn ',' l', hfst]
  subst hl
  refine ⟨rfl, fun k hk => ?_⟩
  have := List.map_inj_left.1 hp k hk
  simpa using this

/-- a signature that checks, and the text it is of -/
theorem checked_text {H : Mac} {a : Assoc} {m : Msg} (h : a.checkMessageSignature H m = .ok true) {sig l : Option Str}
    (hsig : m.getArg .openid t!"sig" = .ok sig) (hl : m.getArg .openid t!"signed" = .ok l) :
    ∃ s l' kv, sig = some s ∧ l = some l' ∧
      KVForm.seqToKV false ((splitOn ',' l').map fun k => (k, (m.toPostArgs.get? (t!"openid." ++ k)).getD [])) = .ok kv ∧
      s = toBase64 (H a.assocType a.secret (Utf8.encode kv)) := by
  have h0 := h
  rw [Assoc.checkMessageSignature, hsig] at h
  rcases sig with _ | _ | ⟨c, r⟩
  · simp at h
  · simp at h
  · simp only [ok_bind] at h
    obtain ⟨cal, h1, -⟩ := bind_eq_ok.1 h
    rw [Assoc.getMessageSignature] at h1
    obtain ⟨pairs, h2, -⟩ := bind_eq_ok.1 h1
    rw [makePairs, hl] at h2
    rcases l with _ | _ | ⟨c', r'⟩
    · simp at h2
    · simp at h2
    · obtain ⟨-, kv, h3, h4⟩ := (Props.c13_accepts_iff H a m _ _ hsig (by simp) hl (by simp)).1 h0
      exact ⟨_, _, kv, rfl, rfl, h3, h4⟩

/-- what an answer to check_authentication consists of -/
theorem answer_shape {σ : Type} {V : Server.World} {E : Server.Env} {step : σ → Event → σ × Outcome} {view : σ → AssocMap}
    (hf : Faithful V.clock step view) {s s' : σ} {r : CheckAuthRequest} {resp : Server.Response}
    (h : Server.Prog.run step E.now s (r.answer V E) = (s', .ok resp)) :
    resp.request = .checkAuth r ∧ ∃ oid v d, Exactly resp.fields oid d ∧ d t!"is_valid" = some v ∧ (v = t!"true" ∨ v = t!"false") ∧
      ∀ k, d k ≠ none → k = t!"is_valid" ∨ k = t!"invalidate_handle" := by
  rw [CheckAuthRequest.answer] at h
  obtain ⟨s1, valid, -, h⟩ := Server.run_bind_ok _ _ h
  obtain ⟨s2, u, -, h⟩ := Server.run_bind_ok _ _ h
  obtain ⟨s3, resp1, h5, h⟩ := Server.run_bind_ok _ _ h
  simp only [Server.run_done, Prod.mk.injEq] at h5
  obtain ⟨rfl, h5⟩ := h5
  obtain ⟨s4, resp2, h7, h8⟩ := Server.run_bind_ok _ _ h
  simp only [Server.run_done, Prod.mk.injEq] at h7
  obtain ⟨rfl, h7⟩ := h7
  obtain ⟨-, r2⟩ := Server.run_report hf rfl rfl h8
  obtain ⟨n1, n2, n3⟩ := Server.Response.new_ok h5
  obtain ⟨oid, ho⟩ : ∃ oid, r.message.getOpenIDNamespace = some oid := by
    cases ho : r.message.getOpenIDNamespace with
    | some o => exact ⟨o, rfl⟩
    | none =>
      have := n3 ho
      exact absurd (Server.Response.set_none h7 (by rw [this]; rfl)) (by simp)
  have e1 := (n2 oid ho).set (Server.Response.set_ok h7).2
  have q1 := (Server.Response.set_ok h7).1
  have hv : (if valid = true then t!"true" else t!"false") = t!"true" ∨ (if valid = true then t!"true" else t!"false") = t!"false" := by
    cases valid <;> simp
  rcases r2 resp rfl with rfl | ⟨k, -, hk⟩
  · refine ⟨q1.trans n1, oid, _, _, e1, if_pos rfl, hv, fun k hk => ?_⟩
    simp only [ne_eq, ite_eq_right_iff, reduceCtorEq, imp_false, Classical.not_not] at hk
    exact .inl hk.symm
  · refine ⟨((Server.Response.set_ok hk).1.trans q1).trans n1, oid, _, _, e1.set (Server.Response.set_ok hk).2,
      (if_neg (by decide)).trans (if_pos rfl), hv, fun k hk => ?_⟩
    split at hk
    · next h => exact .inr h.symm
    · split at hk
      · next h => exact .inl h.symm
      · exact absurd rfl hk

/-- a reply that reads `is_valid:true` was one -/
theorem valid_read {f : Msg} {oid v kv : Str} {d : Str → Option Str} (hx : Exactly f oid d) (hv : d t!"is_valid" = some v)
    (hb : v = t!"true" ∨ v = t!"false") (hd : ∀ k, d k ≠ none → k = t!"is_valid" ∨ k = t!"invalidate_handle")
    (hkv : f.toKVForm = .ok kv) {D : Dict Str Str} (hD : KVForm.kvToDict kv = .ok D)
    (ht : D.get? t!"is_valid" = some t!"true") : v = t!"true" := by
  obtain ⟨A, hA, hwA, hgA⟩ := Server.toArgs_get (carries_of hx)
  rw [Msg.toKVForm, hA] at hkv
  simp only [ok_bind] at hkv
  rw [KVForm.dictToKV] at hkv
  have hperm := perm_sortBy KVForm.pairLe A
  have hclean : ∀ p ∈ sortBy KVForm.pairLe A, strip p.1 = p.1 := by
    intro p hp
    have hg := Dict.get?_of_mem _ hwA p.1 p.2 (hperm.mem_iff.1 hp)
    rw [hgA] at hg
    have : p.1 = t!"is_valid" ∨ p.1 = t!"invalidate_handle" ∨ p.1 = t!"ns" := by
      cases hdk : d p.1 with
      | some x =>
        rcases hd p.1 (by simp [hdk]) with h | h
        · exact .inl h
        · exact .inr (.inl h)
      | none =>
        rw [hdk, Option.none_or] at hg
        split at hg
        · next h => exact .inr (.inr h.1)
        · cases hg
    rcases this with h | h | h <;> rw [h] <;> decide
  have hseq := KVForm.kvToSeq_seqToKV hkv
  have hmap : (sortBy KVForm.pairLe A).map (fun p => (strip p.1, strip p.2)) =
      (sortBy KVForm.pairLe A).map (fun p => (p.1, strip p.2)) :=
    List.map_congr_left fun p hp => by rw [hclean p hp]
  rw [hmap] at hseq
  have hwB : Dict.WF ((sortBy KVForm.pairLe A).map fun p => (p.1, strip p.2)) := by
    have : Dict.WF (sortBy KVForm.pairLe A) := (List.Perm.nodup_iff (hperm.map _)).2 hwA
    rw [Dict.WF, Dict.keys, List.map_map]
    exact this
  rw [KVForm.kvToDict, hseq] at hD
  simp only [ok_bind, pure_eq_ok, Except.ok.injEq, Dict.ofPairs_eq_self _ hwB] at hD
  subst hD
  have hmem : (t!"is_valid", strip v) ∈ (sortBy KVForm.pairLe A).map fun p => (p.1, strip p.2) := by
    refine List.mem_map.2 ⟨(t!"is_valid", v), hperm.mem_iff.2 (Dict.get?_mem _ _ _ ?_), rfl⟩
    rw [hgA, hv]; rfl
  rw [Dict.get?_of_mem _ hwB _ _ hmem] at ht
  rcases hb with h | h
  · exact h
  · subst h; exact absurd ht (by decide)

/-- how the provider reads the question about a response -/
theorem asked_fields {reg : Dict Str Str} {V : Server.World} {E : Server.Env} {op : Option Str} {q q2 : Dict Str Str} {m ask : Msg}
    {r : CheckAuthRequest} (hw1 : Dict.WF q) (hm : fromPostArgs reg q = .ok m) (hmode : arg q t!"mode" = some t!"id_res")
    (hask : m.setArg .openid t!"mode" t!"check_authentication" = .ok ask)
    (hw : Dict.WF q2) (hq2 : ∀ k, q2.get? k = (Dict.ofPairs (Percent.parseQsl true ask.toURLEncoded)).get? k)
    (hr : Server.decode V E op q2 = .ok (some (.checkAuth r))) :
    (∀ k, '.' ∉ k → r.signed.toPostArgs.get? (t!"openid." ++ k) = arg q k) ∧
    (∀ k, '.' ∉ k → k ≠ t!"ns" → r.signed.getArg .openid k = .ok (arg q k)) ∧
    arg q t!"assoc_handle" = some r.assocHandle ∧
    ((∀ alias uri, V.reg.get? alias = some uri → uri ≠ t!"sreg") →
      (∀ alias uri, m.toPostArgs.get? (t!"openid.ns." ++ alias) = some uri → uri ≠ t!"sreg") →
      ∀ k, r.signed.toPostArgs.get? (t!"openid." ++ k) = m.toPostArgs.get? (t!"openid." ++ k)) := by
  have hg := Consumer.got hw1 hm
  have hdec := (Props.c34_checkauth V E op q2 hw r).1 hr
  obtain ⟨hp, hs⟩ := hdec.2.2.2.2
  have hg2 := Consumer.got hw hp
  have hq : ∀ K, q2.get? K = if K = t!"openid.mode" then some t!"check_authentication" else m.toPostArgs.get? K := by
    intro K; rw [hq2, Honest.form_get, Honest.mode_post hg hask]
  have hmp : m.toPostArgs.get? t!"openid.mode" = some t!"id_res" := by
    rw [← hmode]; exact hg.post t!"mode" (by decide) (by decide)
  have hne : ∀ k, k ≠ t!"mode" → t!"openid." ++ k ≠ t!"openid.mode" :=
    fun k hk e => hk (List.append_cancel_left (as := t!"openid.") e)
  have hargs : ∀ k, '.' ∉ k → k ≠ t!"mode" → arg q2 k = arg q k := by
    intro k h1 h3
    rw [arg, hq, if_neg (hne k h3)]
    by_cases h2 : k = t!"ns"
    · subst h2; exact post_ns hw1 hm
    · exact hg.post k h1 h2
  refine ⟨fun k h1 => ?_, fun k h1 h2 => ?_, ?_, fun hreg hsreg k => ?_⟩
  · rw [Honest.mode_post hg2 hs]
    by_cases hk : k = t!"mode"
    · subst hk; rw [if_pos (by decide), hmode]
    · rw [if_neg (hne k hk), ← hargs k h1 hk]
      by_cases h2 : k = t!"ns"
      · subst h2; exact post_ns hw hp
      · exact hg2.post k h1 h2
  · obtain ⟨o, p1, p2, p3, -, -⟩ := setArg_openid r.message hg2.inv _ _ _ hs
    have p4 : r.signed.getOpenIDNamespace = some o := by rw [Msg.getOpenIDNamespace, p2]; exact p1
    by_cases hk : k = t!"mode"
    · subst hk
      simp [Msg.getArg, Msg.fixNS, p4, p3, Dict.get?_set, hmode]
    · rw [← hargs k h1 hk, ← hg2.get k h1 h2]
      simp [Msg.getArg, Msg.fixNS, p1, p4, p3, Dict.get?_set, Ne.symm hk]
  · rw [← hargs _ (by decide) (by decide)]; exact hdec.2.2.1
  · obtain ⟨-, hsame⟩ := Props.c07_roundtrip V.reg q2 hw hreg (by
      intro alias uri hu
      rw [hq, if_neg (by
        intro e
        have := congrArg (List.take 8) e
        exact absurd this (by simp))] at hu
      exact hsreg alias uri hu) r.message hp
    rw [Honest.mode_post hg2 hs]
    by_cases hk : k = t!"mode"
    · subst hk; rw [if_pos (by decide)]; exact hmp.symm
    · rw [if_neg (hne k hk), show r.message.toPostArgs.get? _ = _ from hsame _, hq, if_neg (hne k hk)]

/-- setting an argument changes one thing that is sent -/
theorem post_set {m m' : Msg} (hi : MInv m) {k v : Str} (h : m.setArg .openid k v = .ok m') :
    MInv m' ∧ ∀ k', k' ≠ k → m'.toPostArgs.get? (t!"openid." ++ k') = m.toPostArgs.get? (t!"openid." ++ k') := by
  obtain ⟨oid, -, h2, h3, h4, h5⟩ := setArg_openid m hi _ _ _ h
  refine ⟨h4, fun k' hk => toPostArgs_set m m' _ _ _ _ h2 h3 ?_⟩
  rw [h5]
  intro e
  simp only [Option.some.injEq] at e
  exact hk (List.append_cancel_left e).symm

/-- what a signed message lists and sends -/
theorem signed_shape {H : Mac} {a : Assoc} {m f : Msg} (hi : MInv m) (h : a.signMessage H m = .ok f) :
    ∃ l, f.getArg .openid t!"signed" = .ok (some l) ∧
      (∀ k v, ',' ∉ k → m.toPostArgs.get? (t!"openid." ++ k) = some v → k ∈ splitOn ',' l) ∧
      (∀ k ∈ splitOn ',' l, k = t!"signed" ∨ k = t!"assoc_handle" ∨
        ∃ r v, m.toPostArgs.get? (t!"openid." ++ r) = some v ∧ k ∈ splitOn ',' r) ∧
      ∀ k, k ∉ [t!"assoc_handle", t!"signed", t!"sig"] →
        f.toPostArgs.get? (t!"openid." ++ k) = m.toPostArgs.get? (t!"openid." ++ k) := by
  obtain ⟨oid, m1, m2, sig, ho, -, -, -, h1, h2, h3, h4⟩ := signMessage_ok H a m f hi h
  obtain ⟨i1, p1⟩ := post_set hi h1
  obtain ⟨i2, p2⟩ := post_set i1 h2
  obtain ⟨i3, p3⟩ := post_set i2 h4
  obtain ⟨o2, ho2, n2, a2, -, -⟩ := setArg_openid m1 i1 _ _ _ h2
  obtain ⟨o3, ho3, n3, a3, -, -⟩ := setArg_openid m2 i2 _ _ _ h4
  have e2 : m2.getOpenIDNamespace = some o2 := by rw [Msg.getOpenIDNamespace, n2]; exact ho2
  have e3 : f.getOpenIDNamespace = some o2 := by rw [Msg.getOpenIDNamespace, n3]; exact e2
  rw [e2] at ho3; cases ho3
  refine ⟨signedList m1, ?_, ?_, ?_, ?_⟩
  · simp [Msg.getArg, Msg.fixNS, e3, a3, a2, Dict.get?_set]
  · intro k v hc hk
    rw [mem_signedList]
    refine .inr ⟨t!"openid." ++ k, ?_, k, rfl, by rw [splitOn_not_mem _ _ hc]; simp⟩
    rw [Dict.mem_keys_iff]
    by_cases hka : k = t!"assoc_handle"
    · subst hka
      obtain ⟨o1, ho1, n1, a1, -, hkey⟩ := setArg_openid m hi _ _ _ h1
      have hmem : (t!"openid." ++ t!"assoc_handle", a.handle) ∈ argPairs m1 := by
        rw [mem_argPairs_iff i1]
        refine ⟨.uri o1, t!"assoc_handle", by rw [a1, Dict.get?_set, if_pos rfl], ?_⟩
        rw [← hkey]; simp [Msg.keyOf, n1]
      rw [toPostArgs_eq]
      show (Dict.get? _ _).isSome = true
      rw [get?_ofPairs]
      refine (Dict.mem_keys_iff _ _).1 (List.mem_map.2 ⟨_, List.mem_reverse.2 (List.mem_append.2 (.inr hmem)), rfl⟩)
    · show (Dict.get? _ _).isSome = true
      rw [p1 k hka, hk]; rfl
  · intro k hk
    rw [mem_signedList] at hk
    rcases hk with h | ⟨name, hn, r, rfl, hr⟩
    · exact .inl h
    · by_cases hra : r = t!"assoc_handle"
      · subst hra
        rw [splitOn_not_mem _ _ (by decide)] at hr
        simp only [List.mem_cons, List.not_mem_nil, or_false] at hr
        exact .inr (.inl hr)
      · rw [Dict.mem_keys_iff] at hn
        change (Dict.get? _ _).isSome = true at hn
        rw [p1 r hra] at hn
        obtain ⟨v, hv⟩ := Option.isSome_iff_exists.1 hn
        exact .inr (.inr ⟨r, v, hv, hr⟩)
  · intro k hk
    simp only [List.mem_cons, List.not_mem_nil, or_false, not_or] at hk
    rw [p3 k hk.2.2, p2 k hk.2.1, p1 k hk.1]

/-- what `sign` signs, and with what -/
theorem signed_by {σ : Type} {V : Server.World} {E : Server.Env} {step : σ → Event → σ × Outcome} {view : σ → AssocMap}
    (hf : Faithful V.clock step view) {s s' : σ} {r resp : Server.Response}
    (h : Server.Prog.run step E.now s (Server.sign V E r) = (s', .ok resp)) :
    ∃ (a : Assoc) (m : Msg), (m = r.fields ∨ ∃ x, r.fields.setArg .openid t!"invalidate_handle" x = .ok m) ∧
      a.signMessage V.mac m = .ok resp.fields := by
  cases hh : r.request.assocHandle with
  | error e => rw [Server.sign, hh] at h; simp at h
  | ok o =>
    have less : (o = none ∨ o = some []) → ∃ (a : Assoc) (m : Msg), (m = r.fields ∨
        ∃ x, r.fields.setArg .openid t!"invalidate_handle" x = .ok m) ∧ a.signMessage V.mac m = .ok resp.fields := by
      intro ho
      obtain ⟨a, -, -, k1, -⟩ := Props.c32_stateless V step view hf s s' E r resp (by rw [hh]; simpa using ho) h
      exact ⟨a, r.fields, .inl rfl, k1⟩
    cases o with
    | none => exact less (.inl rfl)
    | some handle =>
      by_cases hne : handle = []
      · subst hne; exact less (.inr rfl)
      · by_cases hx : ∀ a, view s t!"http://localhost/|normal" handle = some a → a.issued + a.lifetime ≤ V.clock.seconds E.now
        · obtain ⟨a, m, -, k1, k2, -⟩ := Props.c32_fallback V step view hf s s' E r resp handle hh hne hx h
          exact ⟨a, m, .inr ⟨handle, k1⟩, k2⟩
        · simp only [Classical.not_forall] at hx
          obtain ⟨a, ha, hx⟩ := hx
          obtain ⟨k1, -⟩ := Props.c32_named V step view hf s s' E r resp handle a hh hne ha (by omega) h
          exact ⟨a, r.fields, .inl rfl, k1⟩

/-- what an issued response lists and sends -/
theorem issued_shape {σ : Type} {V : Server.World} {E : Server.Env} {step : σ → Event → σ × Outcome} {view : σ → AssocMap}
    (hf : Faithful V.clock step view) {s s' : σ} {r resp : Server.Response} (hi : MInv r.fields)
    (h : Server.Prog.run step E.now s (Server.sign V E r) = (s', .ok resp)) :
    ∃ l, resp.fields.getArg .openid t!"signed" = .ok (some l) ∧
      (∀ k v, ',' ∉ k → k ≠ t!"invalidate_handle" → r.fields.toPostArgs.get? (t!"openid." ++ k) = some v → k ∈ splitOn ',' l) ∧
      (∀ k ∈ splitOn ',' l, k ∈ [t!"signed", t!"assoc_handle", t!"invalidate_handle"] ∨
        ∃ n v, r.fields.toPostArgs.get? (t!"openid." ++ n) = some v ∧ k ∈ splitOn ',' n) ∧
      ∀ k, k ∉ [t!"assoc_handle", t!"signed", t!"sig", t!"invalidate_handle"] →
        resp.fields.toPostArgs.get? (t!"openid." ++ k) = r.fields.toPostArgs.get? (t!"openid." ++ k) := by
  obtain ⟨a, m, hm, hsign⟩ := signed_by hf h
  have hmi : MInv m ∧ ∀ k, k ≠ t!"invalidate_handle" →
      m.toPostArgs.get? (t!"openid." ++ k) = r.fields.toPostArgs.get? (t!"openid." ++ k) := by
    rcases hm with rfl | ⟨x, hx⟩
    · exact ⟨hi, fun _ _ => rfl⟩
    · exact post_set hi hx
  obtain ⟨l, h1, h2, h3, h4⟩ := signed_shape hmi.1 hsign
  refine ⟨l, h1, fun k v hc hk hv => h2 k v hc (by rw [hmi.2 k hk]; exact hv), fun k hk => ?_, fun k hk => ?_⟩
  · rcases h3 k hk with h | h | ⟨n, v, h, hn⟩
    · exact .inl (by simp [h])
    · exact .inl (by simp [h])
    · by_cases he : n = t!"invalidate_handle"
      · subst he
        rw [splitOn_not_mem _ _ (by decide)] at hn
        simp only [List.mem_cons, List.not_mem_nil, or_false] at hn
        exact .inl (by simp [hn])
      · exact .inr ⟨n, v, by rw [← hmi.2 n he]; exact h, hn⟩
  · simp only [List.mem_cons, List.not_mem_nil, or_false, not_or] at hk
    rw [h4 k (by simp only [List.mem_cons, List.not_mem_nil, or_false, not_or]; exact ⟨hk.1, hk.2.1, hk.2.2.1⟩), hmi.2 k hk.2.2.2]

end Authentic
