import Verif.Lemmas.Transport
import Verif.Lemmas.ConsumerVerify
import Verif.Spec.ConsumerAssociate
/-! # Association requests of the consumer -/

namespace Consumer
open Py Message Association Cryptutil Store Discover Spec DH

theorem session_new_ok {L : Lib} {priv : Nat} {t : Str} {s : Session} (h : Session.new L priv t = .ok s) :
    s.sessionType = t ∧ t ∈ [t!"DH-SHA256", t!"DH-SHA1", t!"no-encryption"] := by
  unfold Session.new at h
  split at h
  · next ht => obtain ⟨d, -, h⟩ := bind_eq_ok.1 h; simp at h; subst h; subst ht; exact ⟨rfl, by decide⟩
  · split at h
    · next ht => obtain ⟨d, -, h⟩ := bind_eq_ok.1 h; simp at h; subst h; subst ht; exact ⟨rfl, by decide⟩
    · split at h
      · next ht => simp at h; subst h; subst ht; exact ⟨rfl, by decide⟩
      · cases h

theorem getRequest_keys {s : Session} {d : Dict Str Str} (h : s.getRequest = .ok d) :
    d.get? t!"mode" = none ∧ d.get? t!"assoc_type" = none ∧ d.get? t!"session_type" = none ∧ d.get? t!"ns" = none ∧
      Dict.WF d := by
  cases s with
  | plain => simp [Session.getRequest] at h; subst h; exact ⟨rfl, rfl, rfl, rfl, by decide⟩
  | dh b x =>
    rw [Session.getRequest] at h
    obtain ⟨pub, -, h⟩ := bind_eq_ok.1 h
    obtain ⟨df, -, h⟩ := bind_eq_ok.1 h
    cases df with
    | true => simp at h; subst h; exact ⟨rfl, rfl, rfl, rfl, by simp [Dict.WF, Dict.keys]⟩
    | false =>
      simp only [Bool.false_eq_true, if_false] at h
      obtain ⟨ps, -, h⟩ := bind_eq_ok.1 h
      simp at h; subst h; exact ⟨rfl, rfl, rfl, rfl, by simp [Dict.WF, Dict.keys]⟩

theorem defaults_using {L : Lib} {priv : Nat} {d : DiffieHellman} (h : DiffieHellman.fromDefaults L priv = .ok d) :
    d.usingDefaultValues = .ok true := by
  have hp : (base64ToLong defaultModulus >>= fun n => longToBase64 n) = .ok defaultModulus := by decide +kernel
  have hg : (base64ToLong defaultGenerator >>= fun n => longToBase64 n) = .ok defaultGenerator := by decide +kernel
  rw [DiffieHellman.fromDefaults, DiffieHellman.new] at h
  obtain ⟨p, h1, h⟩ := bind_eq_ok.1 h
  obtain ⟨g, h2, h⟩ := bind_eq_ok.1 h
  rw [h1, ok_bind] at hp
  rw [h2, ok_bind] at hg
  split at h
  · simp at h; subst h
    simp [DiffieHellman.usingDefaultValues, DiffieHellman.parameters, hp, hg]
  · cases h

theorem session_dh {L : Lib} {priv : Nat} {t : Str} {b : Bool} {d : DiffieHellman}
    (h : Session.new L priv t = .ok (.dh b d)) : DiffieHellman.fromDefaults L priv = .ok d := by
  unfold Session.new at h
  split at h
  · obtain ⟨d', h1, h⟩ := bind_eq_ok.1 h; simp at h; rw [h1, h.2]
  · split at h
    · obtain ⟨d', h1, h⟩ := bind_eq_ok.1 h; simp at h; rw [h1, h.2]
    · split at h <;> simp at h

theorem getRequest_dh {L : Lib} {priv : Nat} {b : Bool} {d : DiffieHellman} {x : Dict Str Str}
    (hd : DiffieHellman.fromDefaults L priv = .ok d) (h : Session.getRequest (.dh b d) = .ok x) :
    ∃ pub, d.publicKey = .ok pub ∧ x = [(t!"dh_consumer_public", pub)] := by
  rw [Session.getRequest] at h
  obtain ⟨pub, h1, h⟩ := bind_eq_ok.1 h
  rw [defaults_using hd, ok_bind] at h
  simp at h
  exact ⟨pub, h1, h.symm⟩

theorem update_none {α β : Type} [DecidableEq α] (d e : Dict α β) (he : Dict.WF e) (k : α) (h : e.get? k = none) :
    (d.update e).get? k = d.get? k := by
  rw [Dict.get?_update_WF d e he, h]

theorem createRequest_ok {W : World} {priv : Nat} {e : Endpoint} {a t : Str} {s : Session} {m : Msg}
    (h : createAssociateRequest W priv e a t = .ok (s, m)) : s.sessionType = t ∧ AsksFor W e m.toURLEncoded a t ∧
      ∀ b d, s = .dh b d → Keyed W m.toURLEncoded d := by
  rw [createAssociateRequest] at h
  obtain ⟨s', h1, h⟩ := bind_eq_ok.1 h
  obtain ⟨extra, h2, h⟩ := bind_eq_ok.1 h
  obtain ⟨m', h3, h⟩ := bind_eq_ok.1 h
  simp only [pure_eq_ok, Except.ok.injEq, Prod.mk.injEq] at h
  obtain ⟨rfl, rfl⟩ := h
  obtain ⟨hs, hk⟩ := session_new_ok h1
  obtain ⟨x1, x2, x3, x4, hwe⟩ := getRequest_keys h2
  generalize hA : (if (!e.compatibilityMode || s'.sessionType != t!"no-encryption") = true then _ else _) = A at h3
  have hAw : Dict.WF A := by
    subst hA
    have h0 : Dict.WF ([(t!"mode", t!"associate"), (t!"assoc_type", a)] : Dict Str Str) := by simp [Dict.WF, Dict.keys]
    split <;> split <;> first | exact h0 | exact Dict.WF_set _ h0 _ _ | exact Dict.WF_set _ (Dict.WF_set _ h0 _ _) _ _
  have hw : Dict.WF (A.update extra) := Dict.WF_update _ _ hAw
  have hxk : ∀ k, extra.get? k ≠ none → k = t!"dh_consumer_public" := by
    intro k hk
    cases s' with
    | plain => simp [Session.getRequest] at h2; subst h2; simp [Dict.get?] at hk
    | dh b d =>
      obtain ⟨pub, -, rfl⟩ := getRequest_dh (session_dh h1) h2
      rw [Dict.get?_cons] at hk
      split at hk
      · next e => exact e.symm
      · simp [Dict.get?] at hk
  have hmiss : ∀ k, k ≠ t!"ns" → k ≠ t!"mode" → k ≠ t!"assoc_type" → k ≠ t!"session_type" → A.get? k = none := by
    intro k n1 n2 n3 n4
    rw [← hA]
    split <;> split <;> simp [Dict.get?_set, Dict.get?_cons, n1.symm, n2.symm, n3.symm, n4.symm] <;> rfl
  have hkeys : ∀ k, (A.update extra).get? k ≠ none →
      k ∈ [t!"ns", t!"mode", t!"assoc_type", t!"session_type", t!"dh_consumer_public"] := by
    intro k hk
    rw [Dict.get?_update_WF _ _ hwe] at hk
    by_cases hx : extra.get? k = none
    · rw [hx] at hk
      simp only [Option.none_or] at hk
      by_cases n1 : k = t!"ns"
      · simp [n1]
      by_cases n2 : k = t!"mode"
      · simp [n2]
      by_cases n3 : k = t!"assoc_type"
      · simp [n3]
      by_cases n4 : k = t!"session_type"
      · simp [n4]
      exact absurd (hmiss k n1 n2 n3 n4) hk
    · simp [hxk k hx]
  have hAns : A.get? t!"ns" = if e.compatibilityMode = true then none else some OPENID2_NS := by
    rw [← hA]
    by_cases hc : e.compatibilityMode = true <;> simp only [hc] <;> split <;>
      simp [Dict.get?_set, Dict.get?_cons] <;> rfl
  have hns : (A.update extra).get? t!"ns" = if e.compatibilityMode = true then none else some OPENID2_NS := by
    rw [update_none _ _ hwe _ x4, hAns]
  obtain ⟨m'', hm'', hex⟩ := Server.plain_exactly (reg := W.reg) hw (by
    intro k hk
    have := hkeys k (fun hc => (Dict.get?_none_iff _ _).1 hc hk)
    simp only [List.mem_cons, List.not_mem_nil, or_false] at this
    rcases this with rfl | rfl | rfl | rfl | rfl <;> decide) (by
    rw [hns]; split <;> simp)
  rw [h3] at hm''
  simp only [Except.ok.injEq] at hm''
  subst hm''
  have hpost : ∀ k, k ≠ t!"ns" → m'.toPostArgs.get? (t!"openid." ++ k) = (A.update extra).get? k := by
    intro k hn
    rw [hex.post, if_neg hn, if_neg (fun e => hn e.1)]; simp
  have hpostns : m'.toPostArgs.get? (t!"openid." ++ t!"ns") = if e.compatibilityMode = true then none else some OPENID2_NS := by
    rw [hex.post, hns]
    by_cases hc : e.compatibilityMode = true
    · simp [hc]; decide
    · simp [hc]; decide
  have hw1 : Dict.WF m'.toPostArgs := by rw [toPostArgs_eq]; exact Dict.WF_ofPairs _
  have hperm := perm_sortBy KVForm.pairLe m'.toPostArgs
  have hws : Dict.WF (sortBy KVForm.pairLe m'.toPostArgs) := by
    rw [Dict.WF] at *; exact (List.Perm.nodup_iff (hperm.map _)).2 hw1
  have hg : ∀ k, Dict.get? (sortBy KVForm.pairLe m'.toPostArgs) k = m'.toPostArgs.get? k :=
    fun k => Dict.get?_perm hws hperm k
  have hkd : ∀ b d, s' = .dh b d → Keyed W m'.toURLEncoded d := by
    rintro b d rfl
    obtain ⟨pub, k1, rfl⟩ := getRequest_dh (session_dh h1) h2
    refine ⟨sortBy KVForm.pairLe m'.toPostArgs, _, pub, hws, rfl, session_dh h1, k1, ?_, ?_, ?_⟩
    · rw [arg, hg, hpost _ (by decide), Dict.get?_update_WF _ _ hwe]; rfl
    · rw [arg, hg, hpost _ (by decide), update_none _ _ hwe _ rfl, hmiss _ (by decide) (by decide) (by decide) (by decide)]
    · rw [arg, hg, hpost _ (by decide), update_none _ _ hwe _ rfl, hmiss _ (by decide) (by decide) (by decide) (by decide)]
  refine ⟨hs, ⟨⟨sortBy KVForm.pairLe m'.toPostArgs, hws, rfl, ?_, ?_, ?_, ?_, ?_⟩, hk, ?_⟩, hkd⟩
  · rw [arg, hg, hpost _ (by decide), update_none _ _ hwe _ x1, ← hA]
    split <;> split <;> simp [Dict.get?_set, Dict.get?_cons]
  · rw [arg, hg, hpost _ (by decide), update_none _ _ hwe _ x2, ← hA]
    split <;> split <;> simp [Dict.get?_set, Dict.get?_cons]
  · rw [arg, hg, hpost _ (by decide), update_none _ _ hwe _ x3, ← hA, hs]
    by_cases hc : e.compatibilityMode = true <;> by_cases ht : t = t!"no-encryption" <;>
      simp [hc, ht, Dict.get?_set, Dict.get?_cons] <;> rfl
  · rw [arg, hg, hpostns]; rfl
  · intro name v hmem
    have hmem := hperm.mem_iff.1 hmem
    obtain ⟨k, rfl⟩ := hex.post_prefix hmem
    by_cases hn : k = t!"ns"
    · subst hn; simp
    · have := Dict.get?_of_mem _ hw1 _ _ hmem
      rw [hpost k hn] at this
      have := hkeys k (by rw [this]; simp)
      simp only [List.mem_cons, List.not_mem_nil, or_false] at this
      rcases this with rfl | rfl | rfl | rfl | rfl <;> simp
  · intro hne
    cases s' with
    | plain => exact absurd hs.symm hne
    | dh b d => exact ⟨d, hkd b d rfl⟩

theorem allowed_eq (s : Session) : s.allowedAssocTypes = assocTypesOf s.sessionType := by
  rcases s with _ | ⟨_ | _, _⟩ <;> rfl

theorem sessionFor_ok {response : Msg} {s s' : Session} {t : Str} (h : sessionFor response s t = .ok s') :
    s'.sessionType = t ∧ (s' = s ∨ s' = .plain ∧ response.isOpenID1 = true) := by
  unfold sessionFor at h
  split at h
  · next e => cases h; exact ⟨e, .inl rfl⟩
  · split at h
    · next e =>
      simp at e
      cases h; exact ⟨e.2.symm, .inr ⟨rfl, e.1⟩⟩
    · cases h

theorem asProtocolError_ok {α : Type} {x : Except PyErr α} {a : α} (h : asProtocolError x = .ok a) : x = .ok a := by
  cases x with
  | ok b => exact h
  | error e => simp only [asProtocolError] at h; split at h <;> cases h

theorem assoc_new_ok {handle : Str} {secret : Bytes} {issued lifetime : Int} {t : Str} {a : Assoc}
    (h : Assoc.new handle secret issued lifetime t = .ok a) : a = ⟨handle, secret, issued, lifetime, t⟩ := by
  unfold Assoc.new at h
  split at h
  · simpa using h.symm
  · cases h

/-- what an association is made from -/
theorem extract_ok {W : World} {now : Int} {response : Msg} {d : Dict Str Str} {s : Session} {a : Assoc} (hd : Dict.WF d)
    (hm : fromOpenIDArgs W.reg d = .ok response) (h : extractAssociation W now response s = .ok a) :
    ∃ expires s', d.get? t!"assoc_handle" = some a.handle ∧ d.get? t!"assoc_type" = some a.assocType ∧
      d.get? t!"expires_in" = some expires ∧ parseInt W.digits expires = .ok a.lifetime ∧ a.issued = now ∧
      (s' = s ∧ (d.get? t!"session_type" = some s'.sessionType ∨ d.get? t!"ns" = some t!"http://openid.net/signon/1.1") ∨
       s' = .plain ∧ ∀ u, d.get? t!"ns" = some u →
         u = t!"http://openid.net/signon/1.0" ∨ u = t!"http://openid.net/signon/1.1") ∧
      a.assocType ∈ assocTypesOf s'.sessionType ∧ s'.extractSecret W response = .ok a.secret := by
  obtain ⟨ho, hget⟩ := fromOpenIDArgs_has hd hm
  have hns : response.getOpenIDNamespace = some ((d.get? t!"ns").getD OPENID1_NS) := ho.ns
  rw [extractAssociation] at h
  obtain ⟨at', h1, h⟩ := bind_eq_ok.1 h
  obtain ⟨handle, h2, h⟩ := bind_eq_ok.1 h
  obtain ⟨exp, h3, h⟩ := bind_eq_ok.1 h
  obtain ⟨n, h4, h⟩ := bind_eq_ok.1 h
  obtain ⟨st, h5, h⟩ := bind_eq_ok.1 h
  obtain ⟨s', h6, h⟩ := bind_eq_ok.1 h
  rw [getArgReq_ok, hget _ (by decide) (by decide)] at h1 h2 h3
  simp only [Except.ok.injEq] at h1 h2 h3
  have h4 := asProtocolError_ok h4
  have hv1 : response.isOpenID1 = true → ∀ u, d.get? t!"ns" = some u →
      u = t!"http://openid.net/signon/1.0" ∨ u = t!"http://openid.net/signon/1.1" := by
    intro h1 u hu
    rw [Msg.isOpenID1, hns, hu] at h1
    simpa [OPENID1_NAMESPACES, OPENID1_NS, THE_OTHER_OPENID1_NS] using h1
  split at h
  · next hal =>
    obtain ⟨secret, h7, h8⟩ := bind_eq_ok.1 h
    have h7 := asProtocolError_ok h7
    have := assoc_new_ok h8
    subst this
    obtain ⟨k1, k2⟩ := sessionFor_ok h6
    refine ⟨exp, s', h2, h1, h3, h4, rfl, ?_, by rw [← allowed_eq]; simpa using hal, h7⟩
    rcases k2 with rfl | ⟨rfl, hp⟩
    · unfold replySessionType at h5
      split at h5
      · next h1' =>
        rw [getOpenID1SessionType] at h5
        obtain ⟨t, g1, g2⟩ := bind_eq_ok.1 h5
        have hplain : ∀ x : Session, x.sessionType = t!"no-encryption" → x = .plain := by
          intro x hx; rcases x with _ | ⟨_ | _, _⟩ <;> simp [Session.sessionType] at hx ⊢
        split at g2
        · simp at g2
          exact .inr ⟨hplain _ (by rw [k1, ← g2]), hv1 h1'⟩
        · simp at g2
          cases t with
          | none => exact .inr ⟨hplain _ (by rw [k1, ← g2]; rfl), hv1 h1'⟩
          | some t =>
            simp at g2; subst g2
            left
            refine ⟨rfl, ?_⟩
            by_cases e : OPENID1_NS = (d.get? t!"ns").getD OPENID1_NS
            · rw [e, getArg_uri hns (by rw [← e]; decide), hget _ (by decide) (by decide)] at g1
              simp only [Except.ok.injEq] at g1
              exact .inl (by rw [g1, k1])
            · right
              cases hx : d.get? t!"ns" with
              | none => rw [hx] at e; exact absurd rfl e
              | some u =>
                rw [hx] at e
                rcases hv1 h1' u hx with h | h
                · exact absurd h.symm e
                · rw [h]
      · next h1' =>
        rw [getArgReq_ok] at h5
        have hns2 : response.getOpenIDNamespace = some OPENID2_NS := by
          have := (minv_fromOpenIDArgs _ _ _ hm).oid _ ho.ns
          rw [Msg.isOpenID1, hns] at h1'
          rw [hns]
          simp [OPENID1_NAMESPACES] at h1' this
          grind
        rw [getArg_uri hns2 (by decide), hget _ (by decide) (by decide)] at h5
        simp only [Except.ok.injEq] at h5
        exact .inl ⟨rfl, .inl (by rw [h5, k1])⟩
    · exact .inr ⟨rfl, hv1 hp⟩
  · cases h

end Consumer
