import Verif.Lemmas.Transport
import Verif.Spec.Honest
import Verif.Lemmas.Holds
import Verif.Lemmas.UrlAppend
import Verif.Props.AuthRequest
import Verif.Props.ServerAnswer
import Verif.Props.ServerEncode
import Verif.Props.Association
import Verif.Props.Nonce
/-! # The steps of an honest run -/

namespace Honest
open Py Message Association Cryptutil Store Discover Consumer Spec Oidutil
open Server (Exactly carries_of)

/-- a query whose OpenID arguments belong to no extension can be parsed -/
theorem fromPostArgs_flat {reg q : Dict Str Str} (hq : Dict.WF q)
    (hk : ∀ k v, q.get? (t!"openid." ++ k) = some v → '.' ∉ k)
    (hns : arg q t!"ns" ∈ [none, some t!"http://openid.net/signon/1.0", some t!"http://specs.openid.net/auth/2.0"]) :
    ∃ m, fromPostArgs reg q = .ok m := by
  obtain ⟨O, B, e, h1, h2, h3, h4⟩ := partitionArgs_spec q hq
  have hg : ∀ k, O.get? k = q.get? (t!"openid." ++ k) := by
    intro k
    have := partition_get q hq [] [] k
    have h : (partitionArgs q).1.get? k = q.get? (t!"openid." ++ k) := by simpa [partitionArgs] using this
    rw [e] at h; exact h
  have hO : ∃ m, fromOpenIDArgs reg O = .ok m := by
    cases hx : fromOpenIDArgs reg O with
    | ok m => exact ⟨m, rfl⟩
    | error x =>
      exfalso
      rcases fromOpenIDArgs_error h1 hx with ⟨-, u, p1, p2⟩ | ⟨-, -, k, p1, p2⟩
      · rw [hg] at p1
        rw [show arg q t!"ns" = some u from p1] at hns
        apply p2
        simp only [List.mem_cons, reduceCtorEq, Option.some.injEq, List.not_mem_nil, or_false, false_or] at hns
        rcases hns with rfl | rfl <;> decide
      · have p3 := (Dict.mem_keys_iff _ _).1 p1
        cases hv : O.get? k with
        | none => simp [Dict.has, hv] at p3
        | some v => exact hk k v (by rw [← hg]; exact hv) p2
  obtain ⟨m, hm⟩ := hO
  rw [fromPostArgs, e]
  simp only [hm, ok_bind]
  exact ⟨_, rfl⟩

theorem ofPairs_append_get {l : List (Str × Str)} {d : Dict Str Str} (hd : Dict.WF d) (k : Str) :
    (Dict.ofPairs (l ++ d)).get? k = (d.get? k).or ((Dict.ofPairs l).get? k) := by
  rw [Dict.ofPairs, Dict.update_append, Dict.get?_update_WF _ _ hd]
  cases d.get? k <;> rfl

theorem parameters_mem {url k v : Str} (h : (parameters url).get? k = some v) :
    (k, v) ∈ Percent.parseQsl true (Props.queryOf url) := by
  rw [parameters, Association.get?_ofPairs] at h
  simpa using Dict.get?_mem _ _ _ h

/-- the parameters of the URL of a message -/
theorem toURL_get {m : Msg} {url : Str} (hf : '#' ∉ url) (k : Str) :
    (parameters (m.toURL url)).get? k = (m.toPostArgs.get? k).or ((parameters url).get? k) := by
  have hw : Dict.WF m.toPostArgs := by rw [toPostArgs_eq]; exact Dict.WF_ofPairs _
  obtain ⟨hq, hp⟩ := Props.c06_appendArgs_dict url m.toPostArgs hf
  have hws : Dict.WF (sortBy KVForm.pairLe m.toPostArgs) := (List.Perm.nodup_iff (hp.map _)).2 hw
  rw [parameters, Msg.toURL, hq, ofPairs_append_get hws, Dict.get?_perm hws hp]
  rfl

theorem posts_unique {page url url' : Str} {l l' : List (Str × Str)} (h : Posts page url l) (h' : Posts page url' l') :
    url = url' ∧ l = l' := by
  obtain ⟨f, h1, h2, -, -, -, h3, -⟩ := h
  obtain ⟨f', g1, g2, -, -, -, g3, -⟩ := h'
  rw [h1] at g1
  cases g1
  rw [h2] at g2; cases g2
  exact ⟨rfl, h3.symm.trans g3⟩

theorem brings_get {f : Msg} {url : Str} {w : Server.WebResponse} (hs : sentTo f url w) (hf : '#' ∉ url) {q : Dict Str Str}
    (hq : Brings w q) : Dict.WF q ∧ ∀ k, q.get? k = (f.toPostArgs.get? k).or ((parameters url).get? k) := by
  obtain ⟨h1, h2⟩ := hq
  refine ⟨h1, fun k => ?_⟩
  rcases hs with ⟨-, c1, c2, c3, -⟩ | ⟨-, rfl⟩
  · obtain ⟨code, loc, body⟩ := w
    simp only at c1 c2
    subst c1; subst c2
    obtain ⟨url', fields', p1, p2⟩ := h2
    obtain ⟨rfl, rfl⟩ := posts_unique p1 c3
    exact p2 k
  · rw [h2 k, toURL_get hf]

theorem brings_some {f : Msg} {url : Str} {w : Server.WebResponse} (hs : sentTo f url w) : ∃ q, Brings w q := by
  have hw : Dict.WF f.toPostArgs := by rw [toPostArgs_eq]; exact Dict.WF_ofPairs _
  rcases hs with ⟨-, c1, c2, c3, -⟩ | ⟨-, rfl⟩
  · obtain ⟨code, loc, body⟩ := w
    simp only at c1 c2
    subst c1; subst c2
    exact ⟨Dict.ofPairs (Percent.parseQsl true (Props.queryOf url) ++ f.toPostArgs), Dict.WF_ofPairs _, url, f.toPostArgs, c3,
      fun k => ofPairs_append_get hw k⟩
  · exact ⟨parameters (f.toURL url), Dict.WF_ofPairs _, fun k => rfl⟩

/-- the parameters of the return URL are those it had and the consumer's own -/
theorem return_get {rt : Str} {own : List (Str × Str)} (hf : '#' ∉ rt)
    (hn : ((Percent.parseQsl true (Props.queryOf rt) ++ own).map (·.1)).Nodup) (k v : Str) :
    (parameters (appendArgsSeq rt own)).get? k = some v ↔ (k, v) ∈ Percent.parseQsl true (Props.queryOf rt) ++ own := by
  have h := (Props.c06_appendArgs_seq rt own hf).2
  have hw : Dict.WF (Percent.parseQsl true (Props.queryOf rt) ++ own) := hn
  rw [parameters, h, Dict.ofPairs_eq_self _ hw]
  exact ⟨Dict.get?_mem _ _ _, Dict.get?_of_mem _ hw _ _⟩

theorem own_names (e : Endpoint) (nonce : Str) : ∀ p ∈ ownArgs e nonce,
    p.1 = t!"janrain_nonce" ∨ p.1 = t!"openid1_claimed_id" := by
  intro p hp
  unfold ownArgs at hp
  split at hp
  · simp only [List.mem_cons, List.not_mem_nil, or_false] at hp
    rcases hp with rfl | rfl <;> simp
  · simp only [List.mem_cons, List.not_mem_nil, or_false] at hp
    subst hp; simp

theorem own_nodup (e : Endpoint) (nonce : Str) : ((ownArgs e nonce).map (·.1)).Nodup := by
  unfold ownArgs
  split <;> simp

theorem return_nodup {U : Url.Uni} {realm rt current : Str} (h : Returnable U realm rt current) (e : Endpoint) (nonce : Str) :
    ((Percent.parseQsl true (Props.queryOf rt) ++ ownArgs e nonce).map (·.1)).Nodup := by
  rw [List.map_append, List.nodup_append]
  refine ⟨h.names, own_nodup e nonce, ?_⟩
  intro x hx y hy hxy
  subst hxy
  rw [List.mem_map] at hx hy
  obtain ⟨p, hp, rfl⟩ := hx
  obtain ⟨p', hp', he⟩ := hy
  obtain ⟨-, g1, g2⟩ := h.free p hp
  rcases own_names e nonce p' hp' with h | h
  · exact g1 (by rw [← he, h])
  · exact g2 (by rw [← he, h])

theorem return_free {U : Url.Uni} {realm rt current : Str} (h : Returnable U realm rt current) (e : Endpoint) (nonce : Str) :
    ∀ p ∈ Percent.parseQsl true (Props.queryOf rt) ++ ownArgs e nonce, startsWith p.1 t!"openid." = false := by
  intro p hp
  rcases List.mem_append.1 hp with hp | hp
  · exact (h.free p hp).1
  · rcases own_names e nonce p hp with h | h <;> rw [h] <;> decide

/-- what arrives of a message -/
theorem arg_of {reg : Dict Str Str} {x m : Msg} {oid : Str} (hB : Bearer reg x oid) {d : Str → Option Str}
    (h : Holds x m oid d) (hd : ∀ k v, d k = some v → '.' ∉ k ∧ k ≠ t!"ns") {q : Dict Str Str}
    (hq : ∀ k, q.get? (t!"openid." ++ k) = m.toPostArgs.get? (t!"openid." ++ k)) :
    (∀ k, '.' ∉ k ∧ k ≠ t!"ns" → arg q k = d k) ∧ arg q t!"ns" = if oid = OPENID1_NS then none else some oid := by
  refine ⟨fun k hk => ?_, ?_⟩
  · rw [arg, hq, h.post hB hd k hk]
  · rw [arg, hq, h.post_ns hB hd]

theorem nonce_ne (w : Nat) (salt : Str) : Nonce.mkNonce w salt ≠ [] := by
  intro h
  have := congrArg List.length h
  simp [Nonce.mkNonce, Nonce.strftime] at this

theorem realm_ne {U : Url.Uni} {realm : Str} {L : Location} (h : locate U realm = some L) : realm ≠ [] := by
  rintro rfl
  rw [locate] at h
  have : Urinorm.urinorm U [] = .error .valueError := by
    rw [Urinorm.urinorm]; rfl
  rw [this] at h; cases h

theorem auth_names (e : Endpoint) (anonymous immediate : Bool) (realm rt : Str) (handle : Option Str) (k v : Str)
    (h : argsOf (authArgs e anonymous immediate realm rt handle) k = some v) : '.' ∉ k ∧ k ≠ t!"ns" := by
  have := argsOf_mem h
  simp only [authArgs, List.mem_cons, Prod.mk.injEq, List.not_mem_nil, or_false] at this
  rcases this with h | h | h | h | h | h <;> (rw [h.1]; try decide)
  split <;> decide

/-- the arguments of a request, as they arrive -/
theorem auth_arrived {reg : Dict Str Str} {x : Msg} {e : Endpoint} (hB : Bearer reg x (versionOf e)) {anonymous immediate : Bool}
    {realm rt : Str} {handle : Option Str} {m : Msg}
    (hx : Holds x m (versionOf e) (argsOf (authArgs e anonymous immediate realm rt handle)))
    {q : Dict Str Str} (hq : ∀ k, q.get? (t!"openid." ++ k) = m.toPostArgs.get? (t!"openid." ++ k)) :
    (IsV1 q ↔ versionOf e = t!"http://openid.net/signon/1.0") ∧
    arg q t!"mode" = some (if immediate then t!"checkid_immediate" else t!"checkid_setup") ∧
    arg q t!"return_to" = some rt ∧
    (if IsV1 q then arg q t!"trust_root" else arg q t!"realm") = some realm ∧
    arg q t!"identity" = (if anonymous then none else (askedAbout e).1) ∧
    arg q t!"claimed_id" = (if anonymous ∨ versionOf e = t!"http://openid.net/signon/1.0" then none else (askedAbout e).2) ∧
    arg q t!"assoc_handle" = handle := by
  obtain ⟨hget, hns⟩ := arg_of hB hx (auth_names e anonymous immediate realm rt handle) hq
  have hv1 : IsV1 q ↔ versionOf e = t!"http://openid.net/signon/1.0" := by
    unfold IsV1
    rw [hns]
    rcases Props.version_cases e with h | h <;> rw [h] <;> decide
  refine ⟨hv1, ?_, ?_, ?_, ?_, ?_, ?_⟩
  · rw [hget _ (by decide)]; simp only [authArgs, argsOf]; split <;> simp_all
  · rw [hget _ (by decide)]; simp only [authArgs, argsOf]; split <;> simp_all
  · by_cases h : IsV1 q
    · rw [if_pos h, hget _ (by decide)]; simp only [authArgs, argsOf, if_pos (hv1.1 h)]; simp
    · rw [if_neg h, hget _ (by decide)]; simp only [authArgs, argsOf, if_neg (fun x => h (hv1.2 x))]; simp
  · rw [hget _ (by decide)]; simp only [authArgs, argsOf]; split <;> simp_all
  · rw [hget _ (by decide)]; simp only [authArgs, argsOf]; split <;> simp_all
  · rw [hget _ (by decide)]; simp only [authArgs, argsOf]; split <;> simp_all

theorem request_decodes {V : Server.World} {Es : Server.Env} {x : Msg} {e : Endpoint} (hB : Bearer V.reg x (versionOf e))
    {anonymous immediate : Bool} {realm rt : Str} {handle : Option Str} {m : Msg}
    (hx : Holds x m (versionOf e) (argsOf (authArgs e anonymous immediate realm rt handle)))
    (hv : anonymous = true → versionOf e ≠ t!"http://openid.net/signon/1.0")
    (hid : anonymous = false → (askedAbout e).1 ≠ none ∧
      (versionOf e = t!"http://specs.openid.net/auth/2.0" → (askedAbout e).2 ≠ none))
    (hrt : rt ≠ []) {L R : Location} (hL : locate V.uni realm = some L) (hL' : IsRealm L) (hR : locate V.uni rt = some R)
    (hR' : IsRealm R) (hc : Covers L R)
    {q : Dict Str Str} (hw : Dict.WF q) (hq : ∀ k, q.get? (t!"openid." ++ k) = m.toPostArgs.get? (t!"openid." ++ k)) :
    ∃ mq, fromPostArgs V.reg q = .ok mq ∧ mq.getOpenIDNamespace = some (versionOf e) ∧ Carried x mq (versionOf e) ∧
      Server.decode V Es (some e.serverUrl) q = .ok (some (.checkId ⟨mq, if anonymous then none else (askedAbout e).1,
        if anonymous ∨ versionOf e = t!"http://openid.net/signon/1.0" then none else (askedAbout e).2,
        some rt, some realm, handle, some e.serverUrl, immediate⟩)) := by
  obtain ⟨hv1, h4, h5, h6, h7, h8, h9⟩ := auth_arrived hB hx hq
  obtain ⟨mq, hm, hcar⟩ := hx.arrives hB (auth_names _ _ _ _ _ _) hw hq
  have hrealm : realmOf q = some realm := by
    rw [realmOf, h6]
    have := realm_ne hL
    cases realm with
    | nil => exact absurd rfl this
    | cons => rfl
  refine ⟨mq, hm, hcar.names.ver, hcar, ?_⟩
  · rw [Props.c34_checkid V Es _ q hw]
    refine ⟨⟨?_, ?_, ?_, ?_, ?_⟩, mq, hm, ?_⟩
    · rw [h4]; cases immediate <;> simp
    · intro hV
      have hv' := hv1.1 hV
      have han : anonymous = false := by cases anonymous <;> simp_all
      refine ⟨?_, ?_⟩
      · rw [h7, han]
        exact Option.ne_none_iff_exists'.1 (hid han).1
      · rw [h5]
        cases rt with
        | nil => exact absurd rfl hrt
        | cons c u => exact ⟨c, u, rfl⟩
    · intro hV
      have hv' : versionOf e = t!"http://specs.openid.net/auth/2.0" :=
        (Props.version_cases e).resolve_right fun h => hV (hv1.2 h)
      refine ⟨?_, ⟨_, rfl⟩, _, hrealm⟩
      rw [h7, h8]
      cases han : anonymous with
      | true => simp
      | false =>
        have h' := hid han
        have := h'.2 hv'
        have h0 : ¬ versionOf e = t!"http://openid.net/signon/1.0" := by rw [hv']; decide
        simp only [Bool.false_eq_true, if_false, h0, or_self]
        exact ⟨fun _ => Option.ne_none_iff_exists'.1 this, fun _ => Option.ne_none_iff_exists'.1 h'.1⟩
    · intro u hu
      rw [h5] at hu; cases hu
      exact ⟨R, hR, hR'⟩
    · intro t ht
      rw [hrealm] at ht
      have : t = realm := by
        cases realm with
        | nil => cases ht
        | cons => simpa [given] using ht.symm
      subst this
      refine ⟨L, hL, hL', fun u hu => ?_⟩
      rw [h5] at hu; cases hu
      exact ⟨R, hR, hc⟩
    · rw [h7, h8, h5, hrealm, h9, h4]
      cases immediate <;> simp

theorem own_values {e : Endpoint} {c nonce : Str} (hc : e.claimedId = some c) (hne : c ≠ []) (hn : nonce ≠ []) :
    ∀ p ∈ ownArgs e nonce, p.2 ≠ [] := by
  intro p hp
  unfold ownArgs at hp
  rw [hc] at hp
  split at hp
  · simp only [List.mem_cons, List.not_mem_nil, or_false] at hp
    rcases hp with rfl | rfl
    · exact hn
    · exact hne
  · simp only [List.mem_cons, List.not_mem_nil, or_false] at hp
    subst hp; exact hn

theorem own_ne (e : Endpoint) (nonce : Str) : ownArgs e nonce ≠ [] := by unfold ownArgs; simp

theorem clean_return {U : Url.Uni} {realm rt current : Str} (h : Returnable U realm rt current) :
    Props.queryOf (Url.cleanUrl rt) = Props.queryOf rt := Url.cleanUrl_query rt ⟨h.plain.2.1, h.plain.2.2.1, h.plain.2.2.2.1⟩

/-- the return URL with the consumer's arguments is still under the realm -/
theorem return_located {U : Url.Uni} {realm rt current : Str} (h : Returnable U realm rt current)
    {args : List (Str × Str)} (hv : ∀ p ∈ args, p.2 ≠ []) (hne : args ≠ []) :
    ∃ L R, locate U realm = some L ∧ IsRealm L ∧ locate U (appendArgsSeq rt args) = some R ∧ IsRealm R ∧ Covers L R := by
  obtain ⟨L, R, h1, h2, h3, h4, h5⟩ := h.realm
  obtain ⟨a, b, x, y, g1, g2, -⟩ := h.here
  obtain ⟨t1, t2⟩ := h.tidy b g2
  obtain ⟨more, k1, k2, k3⟩ := TrustRoot.locate_append U rt args h.plain.1 hv hne b g2 t1
    (by rw [clean_return h]; exact t2) R h3
  refine ⟨L, _, h1, h2, k1, ⟨?_, h4.2⟩, h5.1, h5.2.1, h5.2.2.1, TrustRoot.covered_append h5.2.2.2 k2⟩
  simp only [List.mem_append, not_or]
  exact ⟨h4.1, k3⟩

theorem append_chars {rt : Str} {args : List (Str × Str)} (c : Char) (hc : ¬ (0x20 < c.toNat ∧ c ≠ '#' ∧ c ≠ ':'))
    (h : c ∉ rt) : c ∉ appendArgsSeq rt args := by
  rw [appendArgsSeq]
  split
  · exact h
  · simp only [List.mem_append, List.mem_cons, not_or]
    refine ⟨h, ?_, fun hm => hc (Url.encoded_chars args c hm)⟩
    rintro rfl
    apply hc
    split <;> decide

/-- what comes back to the return URL matches it -/
theorem returned_to {W : World} {realm rt current : Str} (h : Returnable W.uni realm rt current)
    {args : List (Str × Str)} (hv : ∀ p ∈ args, p.2 ≠ [])
    (hn : ((Percent.parseQsl true (Props.queryOf rt) ++ args).map (·.1)).Nodup)
    (hf : ∀ p ∈ Percent.parseQsl true (Props.queryOf rt) ++ args, startsWith p.1 t!"openid." = false)
    {q : Dict Str Str} {m : Msg}
    (hq : ∀ k, startsWith k t!"openid." = false → q.get? k = (parameters (appendArgsSeq rt args)).get? k)
    (hm : ∀ k, m.toPostArgs.get? k = q.get? k) : ReturnedTo W q m current (appendArgsSeq rt args) := by
  obtain ⟨a, b, x, y, g1, g2, g3, g4, g5, g6, g7⟩ := h.here
  obtain ⟨t1, t2⟩ := h.tidy b g2
  have hb := Urinorm.urinorm_append W.uni rt args h.plain.1 hv b g2 (by rw [clean_return h]; exact t2)
  have hget := return_get h.plain.1 hn
  constructor
  · by_cases ha : args = []
    · subst ha
      exact ⟨a, b, x, y, g1, g2, g3, g4, g5, g6, g7⟩
    · have hy := Url.urlparse_append W.uni b (Percent.urlencode args) t1 (Url.encoded_chars args) y g4
      have hy' : Url.urlparse W.uni (appendArgsSeq b args) = .ok { y with
          query := if '?' ∈ b then y.query ++ '&' :: Percent.urlencode args else Percent.urlencode args } := by
        rw [appendArgsSeq, if_neg ha]; exact hy
      exact ⟨a, _, x, _, g1, hb, g3, hy', g5, g6, g7⟩
  · obtain ⟨s, netloc, path, h0, -⟩ := Urinorm.urinorm_ok W.uni (appendArgsSeq rt args) _ hb
    have hc : '#' ∉ appendArgsSeq rt args := append_chars _ (by decide) h.plain.1
    have hsq := Url.urlsplit_query W.uni _ hc s h0
    rw [Url.cleanUrl_query _ ⟨append_chars _ (by decide) h.plain.2.1, append_chars _ (by decide) h.plain.2.2.1,
      append_chars _ (by decide) h.plain.2.2.2.1⟩] at hsq
    obtain ⟨u, hu, huq⟩ : ∃ u, Url.urlparse W.uni (appendArgsSeq rt args) = .ok u ∧ u.query = s.query := by
      rw [Url.urlparse, h0]; exact ⟨_, rfl, rfl⟩
    have hp : Percent.parseQsl true u.query = Percent.parseQsl true (Props.queryOf rt) ++ args := by
      rw [huq, hsq]; exact (Props.c06_appendArgs_seq rt args h.plain.1).2
    refine ⟨u, hu, ?_, ?_⟩
    · intro k v hkv
      rw [hp] at hkv
      have hk := hf _ hkv
      have := hq k hk
      rw [(hget k v).2 hkv] at this
      exact ⟨by rw [hm, this], fun _ => this⟩
    · intro k v hkv hk
      rw [hp, ← hget, ← hq k hk, hkv]

theorem ofNat_ne (n : Nat) : Char.ofNat (48 + n) ≠ '\n' := by
  intro h
  by_cases hv : (48 + n).isValidChar
  · have h1 : (Char.ofNat (48 + n)).toNat = 48 + n := by
      rw [Char.ofNat, dif_pos hv]; rfl
    rw [h] at h1
    have h2 : ('\n').toNat = 10 := rfl
    omega
  · rw [Char.ofNat, dif_neg hv] at h
    exact absurd h (by decide)

theorem nonce_line (w : Nat) (salt : Str) (h : '\n' ∉ salt) : '\n' ∉ Nonce.mkNonce w salt := by
  have hp : ∀ n, '\n' ∉ Nonce.pad2 n := by
    intro n hm
    simp only [Nonce.pad2, List.mem_cons, List.not_mem_nil, or_false] at hm
    rcases hm with hm | hm <;> exact ofNat_ne _ hm.symm
  have hy : ∀ n, '\n' ∉ natToStr n := by
    intro n hm
    exact absurd ((natToStr_spec n).2.1 _ hm) (by decide)
  simp only [Nonce.mkNonce, Nonce.strftime, List.mem_append, List.mem_cons, not_or, List.not_mem_nil, or_false]
  simp [hp, hy, h]

/-! ## What can be in a page -/

theorem legible_ascii {s : Str} (h : ∀ c ∈ s, 32 ≤ c.toNat ∧ c.toNat < 127) : Legible s :=
  fun c hc => .inr (.inr (.inr ⟨(h c hc).1, by have := (h c hc).2; omega, by have := (h c hc).2; omega⟩))

theorem base64_legible (b : Bytes) : Legible (Cryptutil.toBase64 b) := by
  intro c hc
  rw [Cryptutil.toBase64, List.dropLast_concat] at hc
  rcases Base64.encode_alphabet _ c hc with h | rfl
  · have : Legible Base64.alphabet := by decide +kernel
    exact this c h
  · decide

theorem append_legible {rt : Str} {args : List (Str × Str)} (h : Legible rt) : Legible (appendArgsSeq rt args) := by
  rw [appendArgsSeq]
  split
  · exact h
  · refine legible_append h ?_
    intro c hc
    rcases List.mem_cons.1 hc with rfl | hc
    · split <;> decide
    · refine .inr (.inr (.inr ?_))
      rcases Percent.urlencode_chars args c hc with h | rfl | rfl
      · simp only [Percent.isQuotedChar, Bool.or_eq_true, Bool.and_eq_true, decide_eq_true_eq, beq_iff_eq] at h
        omega
      · decide
      · decide

theorem digits_legible {s : Str} (h : ∀ c ∈ s, isDigit c = true) : Legible s := by
  refine legible_ascii fun c hc => ?_
  have := h c hc
  simp only [isDigit, Bool.and_eq_true, decide_eq_true_eq] at this
  omega

theorem nonce_legible (w : Nat) (salt : Str) (h : Legible salt) : Legible (Nonce.mkNonce w salt) := by
  obtain ⟨d, hd, -, h1, h2, h3, h4⟩ := Props.date_spec w
  have hp : ∀ n, n < 100 → Legible (Nonce.pad2 n) := by decide +kernel
  have hm := hp d.2.1 (by omega)
  have hy := digits_legible (natToStr_spec d.1).2.1
  have hdy := hp d.2.2 (by
    have := Nonce.daysInMonth_le (Nonce.isLeap d.1) d.2.1
    omega)
  have hh := hp (w % 86400 / 3600) (by omega)
  have hmi := hp (w % 3600 / 60) (by omega)
  have hs := hp (w % 60) (by omega)
  have cons : ∀ {c : Char} {s : Str}, Legible [c] → Legible s → Legible (c :: s) := fun a b => legible_append a b
  rw [Props.mkNonce_date, hd]
  unfold Nonce.strftime Nonce.tmOf
  simp only [List.append_assoc, List.cons_append, List.nil_append]
  exact legible_append hy (cons (by decide) (legible_append hm (cons (by decide) (legible_append hdy (cons (by decide)
    (legible_append hh (cons (by decide) (legible_append hmi (cons (by decide) (legible_append hs (cons (by decide) h)))))))))))

theorem handle_legible {t : Str} (ht : Legible t) (n : Int) (u : Bytes) : Legible (Server.handleText t n u) := by
  have hx : Legible (Server.hexText n.toNat) := by
    intro c hc
    obtain ⟨d, hd, rfl⟩ := Server.hexText_mem hc
    have key : ∀ d < 16, Legible [Server.hexChar d] := by decide +kernel
    exact key d hd _ (by simp)
  have hb := base64_legible u
  intro c hc
  rw [Server.handleText] at hc
  simp only [List.mem_cons, List.mem_append, List.cons_append, List.not_mem_nil, or_false] at hc
  rcases hc with rfl | (((((h | h | h) | h) | h | h) | h) | h)
  all_goals first | (subst h; decide) | exact ht c h | exact hx c h | exact hb c h | decide

theorem split_legible {s : Str} (h : ∀ k ∈ splitOn ',' s, Legible k) : Legible s := by
  rw [← join_splitOn ',' s]
  generalize splitOn ',' s = l at h
  induction l with
  | nil => intro c hc; cases hc
  | cons a r ih =>
    cases r with
    | nil => exact h a (by simp)
    | cons b r =>
      rw [join_cons_cons]
      exact legible_append (legible_append (h a (by simp)) (by decide)) (ih fun k hk => h k (List.mem_cons_of_mem _ hk))

/-- the other fields that signing adds -/
def signedArgs (handle signed sig : Str) : List (Str × Option Str) :=
  [(t!"assoc_handle", some handle), (t!"signed", some signed), (t!"sig", some sig)]

/-- signing a response -/
theorem sign_holds {H : Mac} (hH : ∀ t k x, H t k x ≠ []) {b : Assoc} (hb : b.assocType ∈ allAssociationTypes)
    (hh : '\n' ∉ b.handle) {reg : Dict Str Str} {x f : Msg} {oid : Str} (hB : Bearer reg x oid) (hT : Tagged x oid)
    {l : List (Str × Option Str)} (hx : Holds x f oid (argsOf l)) (hd : ∀ k v, argsOf l k = some v → '.' ∉ k ∧ k ≠ t!"ns")
    (hl : ∀ k v, (k, some v) ∈ l → '\n' ∉ k ∧ ':' ∉ k ∧ ',' ∉ k ∧ '\n' ∉ v)
    (hk : t!"assoc_handle" ∉ l.map (·.1) ∧ t!"signed" ∉ l.map (·.1) ∧ t!"sig" ∉ l.map (·.1)) :
    ∃ f' signed sig, b.signMessage H f = .ok f' ∧ Holds x f' oid (argsOf (l ++ signedArgs b.handle signed sig)) ∧
      b.checkMessageSignature H f' = .ok true ∧ signed ≠ [] ∧ (sig ≠ [] ∧ Legible sig) ∧
      t!"assoc_handle" ∈ splitOn ',' signed ∧
      (∀ k v, f.toPostArgs.get? (t!"openid." ++ k) = some v → k ∈ splitOn ',' signed) ∧
      (∀ k ∈ splitOn ',' signed, (k = t!"ns" ∨ (∃ v, argsOf l k = some v) ∨ k = t!"assoc_handle" ∨ k = t!"signed") ∨
        '.' ∈ k ∧ Legible k ∧ ∃ v, f.toPostArgs.get? (t!"openid." ++ k) = some v) := by
  have hoid : '\n' ∉ oid := by
    rcases hB.version with h | h <;> rw [h] <;> decide
  have hcase : ∀ k v, f.toPostArgs.get? (t!"openid." ++ k) = some v →
      (k, some v) ∈ l ∧ '.' ∉ k ∨ k = t!"ns" ∧ v = oid ∨ '.' ∈ k ∧ Tag k ∧ '\n' ∉ v := by
    intro k v hv
    obtain ⟨k', he, h⟩ := hx.field hB hd hv
    cases pre_inj he
    rcases h with ⟨h1, -, h3⟩ | h | ⟨h1, h2⟩
    · exact .inl ⟨argsOf_mem h3, h1⟩
    · exact .inr (.inl h)
    · exact .inr (.inr ⟨h1, (h2 hT).1, (h2 hT).2.1⟩)
  have hnone : ∀ k, k ∉ l.map (·.1) → argsOf l k = none := by
    intro k hk
    cases ha : argsOf l k with
    | none => rfl
    | some x => exact absurd (List.mem_map.2 ⟨_, argsOf_mem ha, rfl⟩) hk
  have hcomma : ∀ k v, f.toPostArgs.get? (t!"openid." ++ k) = some v → ',' ∉ k := by
    intro k v hv
    rcases hcase k v hv with ⟨h, -⟩ | ⟨rfl, -⟩ | ⟨-, h, -⟩
    · exact (hl k v h).2.2.1
    · decide
    · exact h.2.2.1
  obtain ⟨f', e⟩ := Props.sign_can H b hb hh f hx.inv (by rw [hx.getArg hB, hnone _ hk.2.2])
    (by rw [hx.getArg hB, hnone _ hk.2.1]) (.inl (by rw [hx.getArg hB, hnone _ hk.1])) (by
      intro k v hv
      rcases hcase k v hv with ⟨h, -⟩ | ⟨rfl, rfl⟩ | ⟨-, h, h'⟩
      · exact ⟨(hl k v h).1, (hl k v h).2.1, (hl k v h).2.2.2⟩
      · exact ⟨by decide, by decide, hoid⟩
      · exact ⟨h.1, h.2.1, h'⟩)
  obtain ⟨oid', m1, m2, sig, -, -, -, -, h1, h2, h3, h4⟩ := signMessage_ok H b f f' hx.inv e
  have x1 := hx.setNew hB hk.1 h1
  have x2 := x1.setNew hB (by
    simp only [List.map_append, List.mem_append, not_or]; exact ⟨hk.2.1, by simp⟩) h2
  have x3 := x2.setNew hB (by
    simp only [List.map_append, List.mem_append, not_or]; exact ⟨⟨hk.2.2, by simp⟩, by simp⟩) h4
  obtain ⟨s, kv, g1, g2, g3, g4, g5⟩ := getMessageSignature_ok H b m2 sig h3
  have hd1 : ∀ k v, argsOf (l ++ [(t!"assoc_handle", some b.handle)]) k = some v → '.' ∉ k ∧ k ≠ t!"ns" := by
    intro k v hv
    rw [← Server.argsOf_append hk.1] at hv
    split at hv
    · next he => subst he; decide
    · exact hd k v hv
  have hpost1 : ∀ k, k ≠ t!"assoc_handle" → m1.toPostArgs.get? (t!"openid." ++ k) = f.toPostArgs.get? (t!"openid." ++ k) := by
    intro k hne
    by_cases hdot : '.' ∈ k
    · exact x1.dotted hB hd1 hx hd hdot
    · by_cases hn : k = t!"ns"
      · subst hn; rw [x1.post_ns hB hd1, hx.post_ns hB hd]
      · rw [x1.post hB hd1 k ⟨hdot, hn⟩, hx.post hB hd k ⟨hdot, hn⟩, ← Server.argsOf_append hk.1, if_neg (Ne.symm hne)]
  refine ⟨f', signedList m1, sig, e, by simpa [signedArgs] using x3, ?_, signedList_ne_nil _, ?_, ?_, ?_, ?_⟩
  · refine Props.sign_verify H hH b f f' hx.inv ?_ e
    intro k v hv hs
    rw [splitOn_not_mem _ _ (hcomma k v hv)] at hs
    simp only [List.mem_cons, List.not_mem_nil, or_false] at hs
    subst hs
    rcases hcase _ v hv with ⟨h, -⟩ | ⟨h, -⟩ | ⟨h, -⟩
    · exact hk.2.2 (List.mem_map.2 ⟨_, h, rfl⟩)
    · exact absurd h (by decide)
    · exact absurd h (by decide)
  · rw [g5]; exact ⟨toBase64_ne_nil _ (hH _ _ _), base64_legible _⟩
  · rw [mem_signedList]
    refine .inr ⟨t!"openid." ++ t!"assoc_handle", ?_, _, rfl, by decide⟩
    rw [Dict.mem_keys_iff]
    show (Dict.get? _ _).isSome = true
    rw [x1.post hB hd1 _ (by decide), ← Server.argsOf_append hk.1]
    simp
  · intro k v hkv
    rw [mem_signedList]
    by_cases hne : k = t!"assoc_handle"
    · exact .inr ⟨t!"openid." ++ k, by
        rw [Dict.mem_keys_iff]
        show (Dict.get? _ _).isSome = true
        subst hne
        rw [x1.post hB hd1 _ (by decide), ← Server.argsOf_append hk.1]
        simp, _, rfl, by rw [splitOn_not_mem _ _ (hcomma k v hkv)]; simp⟩
    · refine .inr ⟨t!"openid." ++ k, ?_, _, rfl, by rw [splitOn_not_mem _ _ (hcomma k v hkv)]; simp⟩
      rw [Dict.mem_keys_iff]
      show (Dict.get? _ _).isSome = true
      rw [hpost1 k hne, hkv]; rfl
  · intro k hkm
    rw [mem_signedList] at hkm
    rcases hkm with h | ⟨name, h, r, rfl, hr⟩
    · exact .inl (.inr (.inr (.inr h)))
    · rw [Dict.mem_keys_iff] at h
      change (Dict.get? _ _).isSome = true at h
      by_cases ha : r = t!"assoc_handle"
      · subst ha
        have : k = t!"assoc_handle" := by
          rw [splitOn_not_mem _ _ (by decide)] at hr; simpa using hr
        exact .inl (.inr (.inr (.inl this)))
      · rw [hpost1 r ha] at h
        obtain ⟨v, hv⟩ := Option.isSome_iff_exists.1 h
        rw [splitOn_not_mem _ _ (hcomma r v hv)] at hr
        simp only [List.mem_cons, List.not_mem_nil, or_false] at hr
        subst hr
        rcases hcase _ v hv with ⟨h1, h2⟩ | ⟨h1, -⟩ | ⟨h1, h2, -⟩
        · by_cases hn : k = t!"ns"
          · exact .inl (.inl hn)
          · exact .inl (.inr (.inl ⟨v, by rw [← hx.post hB hd k ⟨h2, hn⟩]; exact hv⟩))
        · exact .inl (.inl h1)
        · exact .inr ⟨h1, h2.2.2.2, v, hv⟩

/-- the fields of a positive answer, but for those that signing adds -/
def assertion (returnTo nonce : Str) (server identity claimed invalid : Option Str) : List (Str × Option Str) :=
  [(t!"mode", some t!"id_res"), (t!"return_to", some returnTo), (t!"response_nonce", some nonce), (t!"op_endpoint", server),
   (t!"identity", identity), (t!"claimed_id", claimed), (t!"invalidate_handle", invalid)]

/-- the fields of a signed answer -/
def whole (returnTo nonce : Str) (server identity claimed invalid : Option Str) (handle signed sig : Str) :
    List (Str × Option Str) :=
  assertion returnTo nonce server identity claimed invalid ++ signedArgs handle signed sig

theorem assertion_names (returnTo nonce : Str) (server identity claimed invalid : Option Str) :
    t!"assoc_handle" ∉ (assertion returnTo nonce server identity claimed invalid).map (·.1) ∧
    t!"signed" ∉ (assertion returnTo nonce server identity claimed invalid).map (·.1) ∧
    t!"sig" ∉ (assertion returnTo nonce server identity claimed invalid).map (·.1) := by
  refine ⟨?_, ?_, ?_⟩ <;>
    · rw [show (assertion returnTo nonce server identity claimed invalid).map (·.1) = [t!"mode", t!"return_to",
        t!"response_nonce", t!"op_endpoint", t!"identity", t!"claimed_id", t!"invalidate_handle"] from rfl]
      decide

theorem whole_names (returnTo nonce : Str) (server identity claimed invalid : Option Str) (handle signed sig : Str) :
    ∀ p ∈ whole returnTo nonce server identity claimed invalid handle signed sig, '.' ∉ p.1 ∧ p.1 ≠ t!"ns" := by
  have h : ∀ k ∈ (whole returnTo nonce server identity claimed invalid handle signed sig).map (·.1), '.' ∉ k ∧ k ≠ t!"ns" := by
    rw [show (whole returnTo nonce server identity claimed invalid handle signed sig).map (·.1) = [t!"mode", t!"return_to",
      t!"response_nonce", t!"op_endpoint", t!"identity", t!"claimed_id", t!"invalidate_handle", t!"assoc_handle", t!"signed",
      t!"sig"] from rfl]
    decide
  exact fun p hp => h _ (List.mem_map_of_mem hp)

/-- a signed answer can be sent as a form -/
theorem whole_writable {reg : Dict Str Str} {x f : Msg} {oid returnTo nonce : Str} (hB : Bearer reg x oid) (hT : Tagged x oid) {server identity claimed invalid : Option Str}
    {handle signed sig : Str}
    (hx : Holds x f oid (argsOf (whole returnTo nonce server identity claimed invalid handle signed sig)))
    (ho : Legible oid) (h1 : Legible returnTo) (h2 : Legible nonce) (h3 : ∀ v, server = some v → Legible v)
    (h4 : ∀ v, identity = some v → Legible v) (h5 : ∀ v, claimed = some v → Legible v)
    (h6 : ∀ v, invalid = some v → Legible v) (h7 : Legible handle) (h8 : Legible sig)
    (h9 : ∀ k ∈ splitOn ',' signed, (k = t!"ns" ∨
      (∃ v, argsOf (assertion returnTo nonce server identity claimed invalid) k = some v) ∨ k = t!"assoc_handle" ∨
      k = t!"signed") ∨ Legible k) : Writable f returnTo := by
  refine ⟨h1, hx.legible hB hT (fun k v h => whole_names _ _ _ _ _ _ _ _ _ _ (argsOf_mem h)) ho ?_⟩
  intro k v hkv
  simp only [whole, assertion, signedArgs, List.cons_append, List.nil_append, List.mem_cons, Prod.mk.injEq,
    Option.some.injEq, List.not_mem_nil, or_false] at hkv
  rcases hkv with ⟨rfl, rfl⟩ | ⟨rfl, rfl⟩ | ⟨rfl, rfl⟩ | ⟨rfl, hv⟩ | ⟨rfl, hv⟩ | ⟨rfl, hv⟩ | ⟨rfl, hv⟩ | ⟨rfl, rfl⟩ |
    ⟨rfl, rfl⟩ | ⟨rfl, rfl⟩
  · decide
  · exact ⟨by decide, h1⟩
  · exact ⟨by decide, h2⟩
  · exact ⟨by decide, h3 v hv.symm⟩
  · exact ⟨by decide, h4 v hv.symm⟩
  · exact ⟨by decide, h5 v hv.symm⟩
  · exact ⟨by decide, h6 v hv.symm⟩
  · exact ⟨by decide, h7⟩
  · refine ⟨by decide, split_legible fun k hk => ?_⟩
    rcases h9 k hk with (rfl | ⟨v, hv⟩ | rfl | rfl) | h
    · decide
    · have hm : k ∈ (assertion returnTo nonce server identity claimed invalid).map (·.1) :=
        List.mem_map.2 ⟨_, argsOf_mem hv, rfl⟩
      rw [show (assertion returnTo nonce server identity claimed invalid).map (·.1) = [t!"mode", t!"return_to",
        t!"response_nonce", t!"op_endpoint", t!"identity", t!"claimed_id", t!"invalidate_handle"] from rfl] at hm
      have : ∀ k ∈ [t!"mode", t!"return_to", t!"response_nonce", t!"op_endpoint", t!"identity", t!"claimed_id",
        t!"invalidate_handle"], Legible k := by decide
      exact this k hm
    · decide
    · decide
    · exact h
  · exact ⟨by decide, h8⟩

/-- an answer that has come back to the return URL -/
structure Arrived (W : World) (x : Msg) (e : Endpoint) (ownNonce : Str) (l : List (Str × Option Str)) (current returnTo : Str)
    (q : Dict Str Str) (m m2 : Msg) : Prop where
  wf : Dict.WF q
  parsed : fromPostArgs W.reg q = .ok m
  again : fromPostArgs W.reg m.toPostArgs = .ok m2
  same : ∀ k, m.toPostArgs.get? k = q.get? k
  v1 : IsV1 q ↔ versionOf e = t!"http://openid.net/signon/1.0"
  ns : arg q t!"ns" ∈ [none, some OPENID1_NS, some OPENID2_NS]
  args : ∀ k, '.' ∉ k ∧ k ≠ t!"ns" → arg q k = argsOf l k
  carried : Carried x m (versionOf e)
  back : ReturnedTo W q m current returnTo
  own : ∀ k v, (k, v) ∈ ownArgs e ownNonce → q.get? k = some v

theorem arrives {W : World} (hreg : ∀ alias uri, W.reg.get? alias = some uri → uri ≠ t!"sreg")
    {realm rt current : Str} (hr : Returnable W.uni realm rt current) {e : Endpoint} {nonce : Str}
    (hov : ∀ p ∈ ownArgs e nonce, p.2 ≠ []) {x f : Msg} (hB : Bearer W.reg x (versionOf e)) {l : List (Str × Option Str)}
    (hx : Holds x f (versionOf e) (argsOf l)) (hl : ∀ p ∈ l, '.' ∉ p.1 ∧ p.1 ≠ t!"ns") {q : Dict Str Str} (hw : Dict.WF q)
    (hq : ∀ k, q.get? k = (f.toPostArgs.get? k).or ((parameters (appendArgsSeq rt (ownArgs e nonce))).get? k)) :
    ∃ m m2, Arrived W x e nonce l current (appendArgsSeq rt (ownArgs e nonce)) q m m2 ∧
      ∀ k, q.get? (t!"openid." ++ k) = f.toPostArgs.get? (t!"openid." ++ k) := by
  have hd : ∀ k v, argsOf l k = some v → '.' ∉ k ∧ k ≠ t!"ns" := fun k v h => hl _ (argsOf_mem h)
  have hnd := return_nodup hr e nonce
  have hfree := return_free hr e nonce
  have hget := return_get hr.plain.1 hnd
  have hwf : Dict.WF f.toPostArgs := by rw [toPostArgs_eq]; exact Dict.WF_ofPairs _
  have hopen : ∀ k, q.get? (t!"openid." ++ k) = f.toPostArgs.get? (t!"openid." ++ k) := by
    intro k
    rw [hq]
    cases hp : (parameters (appendArgsSeq rt (ownArgs e nonce))).get? (t!"openid." ++ k) with
    | none => simp
    | some v =>
      have := hfree _ ((hget _ _).1 hp)
      rw [show startsWith (t!"openid." ++ k) t!"openid." = true from (startsWith_iff _ _).2 ⟨k, rfl⟩] at this
      cases this
  have hbare : ∀ k, startsWith k t!"openid." = false →
      q.get? k = (parameters (appendArgsSeq rt (ownArgs e nonce))).get? k := by
    intro k hk
    rw [hq]
    cases hp : f.toPostArgs.get? k with
    | none => rfl
    | some v =>
      obtain ⟨r, rfl, -⟩ := hx.field hB hd hp
      rw [show startsWith (t!"openid." ++ r) t!"openid." = true from (startsWith_iff _ _).2 ⟨r, rfl⟩] at hk
      cases hk
  obtain ⟨hargs, hns⟩ := arg_of hB hx hd hopen
  have hns' : arg q t!"ns" ∈ [none, some OPENID1_NS, some OPENID2_NS] := by
    rw [hns]
    rcases Props.version_cases e with h | h <;> rw [h] <;> decide
  obtain ⟨m, hm, hcar⟩ := hx.arrives hB hd hw hopen
  obtain ⟨hw2, hsame⟩ := Props.c07_roundtrip W.reg q hw hreg (by
    intro alias uri hu
    exact hx.noDecl hB hd ((hopen (t!"ns." ++ alias)).symm.trans hu)) m hm
  have hsame : ∀ k, m.toPostArgs.get? k = q.get? k := hsame
  obtain ⟨m2, hm2, -⟩ := hx.arrives hB hd hw2 (fun k => by rw [hsame]; exact hopen k)
  refine ⟨m, m2, ⟨hw, hm, hm2, hsame, ?_, hns', hargs, hcar,
    returned_to hr hov hnd hfree hbare hsame, ?_⟩, hopen⟩
  · rw [IsV1, hns]
    rcases Props.version_cases e with h | h <;> rw [h] <;> decide
  · intro k v hkv
    have : startsWith k t!"openid." = false := by
      rcases own_names e nonce _ hkv with h | h <;> simp only at h <;> subst h <;> decide
    rw [hbare k this]
    exact (hget k v).2 (List.mem_append_right _ hkv)

theorem accepted {W : World} {C : Conf} {E : Env} {s : UserSession} {x : Msg} {e e' : Endpoint} {ownNonce returnTo nonce : Str}
    {server identity claimed invalid : Option Str} {handle signed sig current : Str} {q : Dict Str Str} {m m2 : Msg}
    (hA : Arrived W x e ownNonce (whole returnTo nonce server identity claimed invalid handle signed sig) current returnTo q m m2)
    (hcov : ∀ k v, argsOf (assertion returnTo nonce server identity claimed invalid) k = some v → k ∈ splitOn ',' signed)
    (hh : t!"assoc_handle" ∈ splitOn ',' signed)
    (hs : versionOf e = t!"http://specs.openid.net/auth/2.0" → server ≠ none)
    (hi : versionOf e = t!"http://openid.net/signon/1.0" → identity ≠ none)
    {e1 e2 e3 : List Ev} (h4 : Runs (verifyDiscoveryResults W m s.token) e1 (.ok e'))
    (h5 : Runs (idResCheckSignature W C E m e'.serverUrl) e2 (.ok ())) (h6 : Runs (idResCheckNonce W C m e') e3 (.ok ())) :
    Runs (complete W C E s q current) (e1 ++ (e2 ++ e3))
      (.ok (cleanup { s with token := none } (.success e' m ((splitOn ',' signed).map (t!"openid." ++ ·))),
        .ok (.success e' m ((splitOn ',' signed).map (t!"openid." ++ ·))))) := by
  have ha := hA.args
  refine accepts' (rt := returnTo) (l := signed) hA.wf hA.parsed hA.again hA.ns ?_ ?_ ?_ ?_ ?_ ?_ hA.back h4 h5 h6
  · rw [ha _ (by decide)]; rfl
  · intro _; rw [ha _ (by decide)]; rfl
  · intro f hf
    rw [neededFields] at hf
    simp only [List.mem_append, List.mem_cons, List.not_mem_nil, or_false] at hf
    rcases hf with (rfl | rfl | rfl | rfl) | hf
    · exact ⟨_, by rw [ha _ (by decide)]; rfl⟩
    · exact ⟨_, by rw [ha _ (by decide)]; rfl⟩
    · exact ⟨_, by rw [ha _ (by decide)]; rfl⟩
    · exact ⟨_, by rw [ha _ (by decide)]; rfl⟩
    · by_cases hv : IsV1 q
      · simp only [hv, decide_true, if_true, List.mem_cons, List.not_mem_nil, or_false] at hf
        subst hf
        cases hid : identity with
        | none => exact absurd hid (hi (hA.v1.1 hv))
        | some x => exact ⟨x, by rw [ha _ (by decide), hid]; rfl⟩
      · simp only [hv, decide_false, Bool.false_eq_true, if_false, List.mem_cons, List.not_mem_nil, or_false] at hf
        subst hf
        cases hid : server with
        | none => exact absurd hid (hs ((Props.version_cases e).resolve_right fun h => hv (hA.v1.2 h)))
        | some x => exact ⟨x, by rw [ha _ (by decide), hid]; rfl⟩
  · rw [ha _ (by decide)]; rfl
  · intro f hf v hv
    have hn : ∀ b, ∀ f ∈ neededSigned b, ('.' ∉ f ∧ f ≠ t!"ns") ∧ (f = t!"assoc_handle" ∨ f ∉ [t!"assoc_handle", t!"signed", t!"sig"]) := by
      decide
    obtain ⟨n1, n2⟩ := hn _ f hf
    rcases n2 with rfl | n2
    · exact hh
    · apply hcov f v
      rw [ha f n1] at hv
      simp only [List.mem_cons, List.not_mem_nil, or_false, not_or] at n2
      simpa [whole, assertion, signedArgs, argsOf, n2] using hv
  · rw [ha _ (by decide)]; rfl

theorem confirmed {W : World} {x : Msg} {e : Endpoint} (he : Askable e) {anonymous : Bool}
    (hanon : anonymous = true → versionOf e ≠ t!"http://openid.net/signon/1.0")
    {ownNonce returnTo nonce : Str} {invalid : Option Str} {handle signed sig current : Str} {q : Dict Str Str} {m m2 : Msg}
    (hA : Arrived W x e ownNonce (whole returnTo nonce (some e.serverUrl) (if anonymous then none else localIdentifier e)
      (if anonymous ∨ versionOf e = t!"http://openid.net/signon/1.0" then none else e.claimedId) invalid handle signed sig)
      current returnTo q m m2) : Confirmed W (some e) q [] (toldOf e anonymous) := by
  have ha := hA.args
  obtain ⟨c, hc, c1, c2, c3⟩ := he.claimed
  obtain ⟨i, hi, i1, i2, i3⟩ := he.identity
  obtain ⟨ht, t, ht1, ht2⟩ := he.type
  have hdef : Url.urldefrag W.uni c = .ok (c, []) := by rw [Url.urldefrag, if_neg c2]
  have hgi : localIdentifier e = given (some i) := by
    rw [hi]; cases i with
    | nil => exact absurd rfl i1
    | cons => rfl
  by_cases hv : versionOf e = t!"http://openid.net/signon/1.0"
  · have hv' := hA.v1.2 hv
    have han : anonymous = false := by
      cases anonymous with
      | false => rfl
      | true => exact absurd hv (hanon rfl)
    subst han
    rw [Confirmed, if_pos hv']
    refine ⟨c, i, ?_, ?_, .inl rfl, ⟨?_, ⟨c, [], hdef, hc⟩, hgi⟩⟩
    · rw [claimedIn, hA.own _ c (by rw [ownArgs, if_pos hv, hc]; simp)]; rfl
    · rw [ha _ (by decide), ← hi]; rfl
    · rw [versionOf] at hv
      split at hv
      · exact absurd hv (by decide)
      · next h =>
        rw [not_or] at h
        simp only [List.mem_cons, List.not_mem_nil, or_false] at ht1
        rcases ht1 with rfl | rfl | rfl
        · exact absurd ht2 h.2
        · exact ⟨_, by simp, ht2⟩
        · exact ⟨_, by simp, ht2⟩
  · have hv' : ¬ IsV1 q := fun h => hv (hA.v1.1 h)
    rw [Confirmed, if_neg hv']
    cases anonymous with
    | false =>
      refine .inl ⟨c, i, e, ?_, ?_, ?_, .inl rfl, ⟨?_, ⟨c, [], hdef, hc⟩, hgi⟩, ?_⟩
      · rw [ha _ (by decide), ← hc]
        simp [whole, assertion, argsOf, hv]
      · rw [ha _ (by decide), ← hi]; rfl
      · rw [ha _ (by decide)]; rfl
      · rw [versionOf] at hv
        split at hv
        · next h => exact ⟨_, by simp, h.resolve_left ht⟩
        · exact absurd rfl hv
      · simp [toldOf, ← hc]
    | true =>
      refine .inr ⟨e.serverUrl, ?_, ?_, ?_, rfl⟩
      · rw [ha _ (by decide)]; simp [whole, assertion, argsOf, signedArgs]
      · rw [ha _ (by decide)]; rfl
      · rw [ha _ (by decide)]; rfl

theorem asserts_unique {U : Url.Uni} {r : Server.CheckIDRequest} {identity claimedId i c i' c' : Option Str}
    (h : Asserts U r identity claimedId i c) (h' : Asserts U r identity claimedId i' c') : i = i' ∧ c = c' := by
  unfold Asserts at h h'
  split at h
  · next hs =>
    rw [if_pos hs] at h'
    obtain ⟨x, h1, h2, h3⟩ := h
    obtain ⟨x', h1', h2', h3'⟩ := h'
    rw [h1] at h1'
    cases h1'
    exact ⟨h2.trans h2'.symm, h3.trans h3'.symm⟩
  · next hs =>
    rw [if_neg hs] at h'
    cases hg : given r.identity with
    | some y =>
      rw [hg] at h h'
      exact ⟨h.1.trans h'.1.symm, h.2.1.trans h'.2.1.symm⟩
    | none =>
      rw [hg] at h h'
      exact ⟨h.2.1.trans h'.2.1.symm, h.2.2.trans h'.2.2.symm⟩

/-- the positive answer to a request -/
theorem answered {V : Server.World} {Es : Server.Env} {e : Endpoint} {q : Dict Str Str} (hw : Dict.WF q)
    {r : Server.CheckIDRequest} (hd : Server.decode V Es (some e.serverUrl) q = .ok (some (.checkId r)))
    (hns : r.message.getOpenIDNamespace = some (versionOf e)) {rt : Str} (hrt : r.returnTo = some rt) (hne : rt ≠ [])
    (hop : r.opEndpoint = some e.serverUrl) (hsu : e.serverUrl ≠ []) {identity claimedId i c : Option Str}
    (hv : versionOf e = t!"http://openid.net/signon/1.0" → given claimedId = none ∧ ∃ x, i = some x)
    (ha : Asserts V.uni r identity claimedId i c) :
    ∃ resp, r.answer V Es true none identity claimedId = .ok resp ∧ resp.request = .checkId r ∧
      Exactly resp.fields (versionOf e) (argsOf (assertion rt (Nonce.mkNonce (V.clock.seconds Es.now).toNat Es.salt)
        (some e.serverUrl) i (if versionOf e = t!"http://specs.openid.net/auth/2.0" then c else none) none)) := by
  obtain ⟨-, m, hm, hr⟩ := (Props.c34_checkid V Es _ q hw r).1 hd
  have hp := Server.parsed hw hm
  have hv1 : IsV1 q → versionOf e = t!"http://openid.net/signon/1.0" := by
    intro h
    have h1 := hp.v1.2 h
    have hmsg : r.message = m := by rw [hr]
    rw [← hmsg, Msg.isOpenID1, hns] at h1
    rcases Props.version_cases e with h2 | h2
    · rw [h2] at h1; exact absurd h1 (by decide)
    · exact h2
  have hso : given (Props.serverOf r none) = some e.serverUrl := by
    show given r.opEndpoint = _
    rw [hop]
    cases h : e.serverUrl with
    | nil => exact absurd h hsu
    | cons => rfl
  obtain ⟨resp, he⟩ := Props.c35_can V Es (some e.serverUrl) q hw r hd none identity claimedId
    ⟨rt, by rw [hrt]; cases rt with
      | nil => exact absurd rfl hne
      | cons => rfl⟩
    (.inr ⟨_, hso⟩) (fun h => (hv (hv1 h)).1) i c ha (fun h => (hv (hv1 h)).2)
  obtain ⟨h1, oid, url, i', c', g1, g2, g3, g4, g5, -⟩ := Props.answer_exactly V Es r none identity claimedId resp he
  rw [hns] at g1; cases g1
  rw [hrt] at g2; cases g2
  obtain ⟨rfl, rfl⟩ := asserts_unique ha g4
  refine ⟨resp, he, h1, ?_⟩
  rw [hso] at g5
  exact g5.skip (by simp)

/-- a response that has been signed is sent -/
theorem encoded {σ : Type} {reg : Dict Str Str} {x : Msg} {V : Server.World} {Es : Server.Env} {step : σ → Event → σ × Outcome} {st st' : σ}
    {resp resp' : Server.Response} {r : Server.CheckIDRequest} {oid rt nonce : Str} {server identity claimed : Option Str}
    (hB : Bearer reg x oid) (hx : Holds x resp.fields oid (argsOf (assertion rt nonce server identity claimed none)))
    (hs : Server.Prog.run step Es.now st (Server.sign V Es resp) = (st', .ok resp')) (hreq : resp'.request = .checkId r)
    (hrt : r.returnTo = some rt) (hwr : Writable resp'.fields rt) :
    ∃ w, Server.Prog.run step Es.now st (Server.signingEncode V Es resp) = (st', .ok w) ∧ sentTo resp'.fields rt w := by
  obtain ⟨w, he, hw⟩ : ∃ w, Server.encode resp' = .ok w ∧ sentTo resp'.fields rt w := by
    rcases Props.c52_browser resp' r hreq rt hrt with ⟨-, h⟩ | ⟨-, h, -⟩
    · exact h
    · exact absurd hwr h
  refine ⟨w, ?_, hw⟩
  have h1 : resp.needsSigning = .ok true := by
    rw [Server.Response.needsSigning, hx.getArg hB]; rfl
  have h2 : resp.fields.hasKey .openid t!"sig" = .ok false := hasKey_of (hx.getArg hB _)
  rw [Server.signingEncode, h1]
  simp only
  rw [h2]
  simp only
  rw [Server.run_bind, hs]
  simp only [Server.run_done, he]

/-- signing with a shared association that the store holds -/
theorem signed_shared {σ : Type} {V : Server.World} {Es : Server.Env} {step : σ → Event → σ × Outcome} {st st' : σ}
    {resp : Server.Response} {handle : Str} {b : Assoc} {f : Msg} (hh : resp.request.assocHandle = .ok (some handle))
    (hne : handle ≠ [])
    (hst : step st (Es.now, .getAssociation Server.normalKey (some handle)) = (st', .ok (.assoc (some b))))
    (hb : ¬ expired (Es.seconds V) b) (hf : b.signMessage V.mac resp.fields = .ok f) :
    Server.Prog.run step Es.now st (Server.sign V Es resp) = (st', .ok { resp with fields := f }) := by
  have hx : ¬ b.getExpiresIn (Es.seconds V) ≤ 0 := by
    unfold expired at hb; unfold Assoc.getExpiresIn; omega
  cases handle with
  | nil => exact absurd rfl hne
  | cons ch handle =>
    rw [Server.sign, hh]
    simp only
    have h1 : Server.Prog.run step Es.now st (Server.getAssociation V Es (ch :: handle) false false) = (st', .ok (some b)) := by
      rw [Server.getAssociation, Server.run_bind]
      have : Server.Prog.run step Es.now st (Server.fetchAssoc (Server.storeKey false) (ch :: handle)) = (st', .ok (some b)) := by
        rw [Server.fetchAssoc, Server.Prog.run]
        rw [show Server.storeKey false = Server.normalKey from rfl, hst]
        rfl
      rw [this]
      simp only
      rw [Server.keepOrDrop, if_neg hx]
      rfl
    rw [Server.run_bind, h1]
    simp only
    rw [Server.signFound, if_neg hx, Server.signWith, hf]
    rfl

/-- an association checks what its other copy signed, once it has come back -/
theorem checked {H : Mac} {a b : Assoc} (hab : SameAssociation a b) {W : World} {reg : Dict Str Str} {x : Msg} {e : Endpoint} {ownNonce current rt : Str}
    {q : Dict Str Str} {m m2 f : Msg} {oid nonce handle signed sig : Str} {server identity claimed invalid : Option Str}
    (hB : Bearer reg x oid) (hx : Holds x f oid (argsOf (whole rt nonce server identity claimed invalid handle signed sig)))
    (hA : Arrived W x e ownNonce (whole rt nonce server identity claimed invalid handle signed sig) current rt q m m2)
    (hopen : ∀ k, q.get? (t!"openid." ++ k) = f.toPostArgs.get? (t!"openid." ++ k))
    (hb : b.checkMessageSignature H f = .ok true) (hs : signed ≠ []) (hg : sig ≠ []) :
    a.checkMessageSignature H m = .ok true := by
  obtain ⟨h1, kv, h2, h3⟩ := (Props.c13_accepts_iff H b f sig signed (by rw [hx.getArg hB]; rfl) hg (by rw [hx.getArg hB]; rfl) hs).1 hb
  have hp := Server.parsed hA.wf hA.parsed
  refine (Props.c13_accepts_iff H a m sig signed ?_ hg ?_ hs).2 ⟨by rw [hab.type]; exact h1, kv, ?_, by rw [hab.type, hab.secret]; exact h3⟩
  · rw [hp.get _ (by decide) (by decide), hA.args _ (by decide)]; rfl
  · rw [hp.get _ (by decide) (by decide), hA.args _ (by decide)]; rfl
  · rw [← h2]
    congr 1
    apply List.map_congr_left
    intro k _
    rw [hA.same, hopen]

/-- the nonce checked at the end, and whose it is: the provider's, or in OpenID 1 the consumer's own -/
theorem nonce_checked {W : World} {C : Conf} {x : Msg} {e e' : Endpoint} (hu : e'.serverUrl = e.serverUrl)
    {rt current handle signed sig : Str} {w0 ws : Nat} {salt0 salts : Str} {server identity claimed invalid : Option Str}
    {q : Dict Str Str} {m m2 : Msg}
    (hA : Arrived W x e (Nonce.mkNonce w0 salt0)
      (whole rt (Nonce.mkNonce ws salts) server identity claimed invalid handle signed sig) current rt q m m2)
    (h0 : w0 < 253402300800) (hs : ws < 253402300800) :
    Runs (idResCheckNonce W C m e') (if C.hasStore then
      [.store (if versionOf e = t!"http://openid.net/signon/1.0" then .useNonce [] w0 salt0 else .useNonce e.serverUrl ws salts)
        (.ok (.bool true))] else []) (.ok ()) := by
  have hg := got hA.wf hA.parsed
  have hv := versions_of hA.wf hA.parsed hA.ns
  by_cases h1 : versionOf e = t!"http://openid.net/signon/1.0"
  · have hq := hA.v1.2 h1
    have hn : nonceIn q e'.serverUrl = (some (Nonce.mkNonce w0 salt0), []) := by
      rw [nonceIn, if_pos hq, hA.own _ (Nonce.mkNonce w0 salt0) (by rw [ownArgs]; simp)]
    have := nonce_of (C := C) (e := e') hg hv (by rw [hn]) (Props.c15_roundtrip W.digits w0 salt0 h0)
    rw [hn] at this
    rw [if_pos h1]; exact this
  · have hq : ¬ IsV1 q := fun h => h1 (hA.v1.1 h)
    have hn : nonceIn q e'.serverUrl = (some (Nonce.mkNonce ws salts), e.serverUrl) := by
      rw [nonceIn, if_neg hq, hA.args _ (by decide), hu]; rfl
    have := nonce_of (C := C) (e := e') hg hv (by rw [hn]) (Props.c15_roundtrip W.digits ws salts hs)
    rw [hn] at this
    rw [if_neg h1]; exact this

end Honest
