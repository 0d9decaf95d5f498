import Verif.Lemmas.Honest
import Verif.Lemmas.Transport
import Verif.Props.ServerAuth
import Verif.Props.ServerCodec
/-! # The steps of an honest run in which the provider is asked -/

namespace Honest
open Py Message Association Cryptutil Store Discover Consumer Spec Oidutil
open Server (Exactly carries_of)

/-! ## The provider's store -/

section
variable {σ : Type} {step : σ → Event → σ × Outcome} {view : σ → AssocMap} {V : Server.World} {E : Server.Env}
  (hf : Faithful V.clock step view) (hw : NeverFails step)
include hf hw

theorem fetch_runs (s : σ) (u k : Str) :
    ∃ s' r, Server.Prog.run step E.now s (Server.fetchAssoc u k) = (s', .ok r) := by
  obtain ⟨-, hr⟩ := hf.get s E.now u k
  obtain ⟨x, hx⟩ := hw s E.now (.getAssociation u (some k)) trivial
  rw [Server.fetchAssoc, Server.Prog.run]
  cases hs : step s (E.now, .getAssociation u (some k)) with
  | mk s1 o =>
    rw [hs] at hr hx
    simp only at hr hx
    rcases hr with ⟨e, he⟩ | ⟨r, he, -⟩
    · rw [hx] at he; cases he
    · subst he
      exact ⟨s1, r, rfl⟩

omit hf in
theorem drop_runs (s : σ) (u k : Str) :
    ∃ s', Server.Prog.run step E.now s (Server.dropAssoc u k) = (s', .ok ()) := by
  obtain ⟨x, hx⟩ := hw s E.now (.removeAssociation u k) trivial
  rw [Server.dropAssoc, Server.Prog.run]
  cases hs : step s (E.now, .removeAssociation u k) with
  | mk s1 o => rw [hs] at hx; simp only at hx; subst hx; exact ⟨s1, rfl⟩

omit hf in
theorem put_runs (s : σ) (u : Str) (a : Assoc) (ha : a.assocType = t!"HMAC-SHA1" ∨ a.assocType = t!"HMAC-SHA256") :
    ∃ s', Server.Prog.run step E.now s (Server.putAssoc u a) = (s', .ok ()) := by
  obtain ⟨x, hx⟩ := hw s E.now (.storeAssociation u a) ha
  rw [Server.putAssoc, Server.Prog.run]
  cases hs : step s (E.now, .storeAssociation u a) with
  | mk s1 o => rw [hs] at hx; simp only at hx; subst hx; exact ⟨s1, rfl⟩

theorem get_runs (s : σ) (k : Str) (dumb check : Bool) :
    ∃ s' r, Server.Prog.run step E.now s (Server.getAssociation V E k dumb check) = (s', .ok r) := by
  obtain ⟨s1, r, h⟩ := fetch_runs (E := E) hf hw s (Server.storeKey dumb) k
  rw [Server.getAssociation, Server.run_bind, h]
  simp only
  cases r with
  | none => exact ⟨s1, none, rfl⟩
  | some a =>
    rw [Server.keepOrDrop]
    split
    · split
      · obtain ⟨s2, h2⟩ := drop_runs (E := E) hw s1 (Server.storeKey dumb) k
        rw [Server.run_bind, h2]
        exact ⟨s2, none, rfl⟩
      · exact ⟨s1, _, rfl⟩
    · exact ⟨s1, _, rfl⟩

omit hf hw in
theorem new_runs {ty : Str} (ht : ty = t!"HMAC-SHA1" ∨ ty = t!"HMAC-SHA256") :
    ∃ b, Server.newAssociation V E ty = .ok b := by
  rcases ht with rfl | rfl <;> exact ⟨_, rfl⟩

theorem create_runs (s : σ) {ty : Str} (ht : ty = t!"HMAC-SHA1" ∨ ty = t!"HMAC-SHA256") :
    ∃ s' b, Server.Prog.run step E.now s (Server.createAssociation V E true ty) = (s', .ok b) ∧ Makes V E b ∧
      b.assocType = ty ∧ view s' Server.dumbKey b.handle = some b := by
  obtain ⟨b, hb⟩ := new_runs (V := V) (E := E) ht
  obtain ⟨m1, m2⟩ := Server.newAssociation_ok hb
  obtain ⟨s1, h1⟩ := put_runs (E := E) hw s (Server.storeKey true) b (by rw [m2]; exact ht)
  refine ⟨s1, b, ?_, m1, m2, ?_⟩
  · rw [Server.createAssociation, hb]
    simp only
    rw [Server.run_bind, h1]; rfl
  · rcases Server.run_put hf h1 with ⟨-, hv⟩ | ⟨e, he, -⟩
    · rw [hv]; simp [Server.storeKey]
    · cases he

/-- signing with an association made for it -/
theorem signed_private (s : σ) {resp : Server.Response} {reg : Dict Str Str} {x : Msg} {oid : Str} {d : Str → Option Str}
    (hB : Bearer reg x oid) (hx : Holds x resp.fields oid d)
    {inv : Option Str} (hh : resp.request.assocHandle = .ok inv) (hne : inv ≠ some [])
    (hdead : ∀ h, inv = some h → ∀ a, view s Server.normalKey h = some a → expired (E.seconds V) a ∧
      a.assocType ∈ [t!"HMAC-SHA1", t!"HMAC-SHA256"]) :
    ∃ s' b m, Makes V E b ∧ view s' Server.dumbKey b.handle = some b ∧
      (match inv with
        | none => m = resp.fields
        | some h => resp.fields.setArg .openid t!"invalidate_handle" h = .ok m) ∧
      ∀ f, b.signMessage V.mac m = .ok f →
        Server.Prog.run step E.now s (Server.sign V E resp) = (s', .ok { resp with fields := f }) := by
  cases inv with
  | none =>
    obtain ⟨s1, b, h1, h2, -, h4⟩ := create_runs (E := E) hf hw s (.inl rfl)
    refine ⟨s1, b, resp.fields, h2, h4, rfl, fun f hs => ?_⟩
    rw [Server.sign, hh]
    simp only
    rw [Server.run_bind, h1]
    simp only [Server.run_done, Server.signWith, hs]
  | some h =>
    cases h with
    | nil => exact absurd rfl hne
    | cons ch h =>
      obtain ⟨m, hm, -⟩ := hx.can hB t!"invalidate_handle" (ch :: h)
      obtain ⟨s1, a, h1⟩ := get_runs (E := E) hf hw s (ch :: h) false false
      obtain ⟨g0, g⟩ := Server.run_getAssociation hf rfl rfl h1
      obtain ⟨g1, g2, g3⟩ := g a rfl
      have hset : resp.set t!"invalidate_handle" (ch :: h) = .ok { resp with fields := m } := by
        rw [Server.Response.set, hm]; rfl
      cases a with
      | none =>
        obtain ⟨s2, b, k1, k2, -, k4⟩ := create_runs (E := E) hf hw s1 (.inl rfl)
        refine ⟨s2, b, m, k2, k4, hm, fun f hs => ?_⟩
        rw [Server.sign, hh]
        simp only
        rw [Server.run_bind, h1]
        simp only [Server.signFound]
        rw [Server.fallBack, hset]
        simp only
        rw [Server.run_bind]
        simp only [Server.run_done]
        rw [Server.run_bind, k1]
        simp only [Server.run_done, Server.signWith, hs]
      | some o =>
        obtain ⟨o1, o2⟩ := hdead _ rfl o (g1 o rfl).1
        have o3 : o.getExpiresIn (E.seconds V) ≤ 0 := (Server.expires_iff _ _).2 o1
        have o4 : o.assocType ≠ [] := by
          simp only [List.mem_cons, List.not_mem_nil, or_false] at o2
          rcases o2 with h | h <;> rw [h] <;> decide
        obtain ⟨s2, k0⟩ := drop_runs (E := E) hw s1 (Server.storeKey false) (ch :: h)
        obtain ⟨s3, b, k1, k2, -, k4⟩ := create_runs (E := E) hf hw s2 (ty := o.assocType) (by simpa using o2)
        refine ⟨s3, b, m, k2, k4, hm, fun f hs => ?_⟩
        rw [Server.sign, hh]
        simp only
        rw [Server.run_bind, h1]
        simp only [Server.signFound]
        rw [if_pos o3, Server.fallBack, hset]
        simp only
        rw [Server.run_bind]
        simp only [Server.run_done]
        rw [Server.run_bind, Server.invalidate, k0]
        simp only
        rw [if_neg o4, Server.run_bind, k1]
        simp only [Server.run_done, Server.signWith, hs]

/-- asked about what it signed, the provider says yes -/
theorem vouches (s : σ) {r : Server.CheckAuthRequest} {b : Assoc} {oid : Str}
    (hb : view s Server.dumbKey r.assocHandle = some b) (hx : ¬ expired (E.seconds V) b)
    (hs : b.checkMessageSignature V.mac r.signed = .ok true)
    (hns : r.message.getOpenIDNamespace = some oid) (hoid : oid ∈ [OPENID1_NS, THE_OTHER_OPENID1_NS, OPENID2_NS])
    (hne : r.invalidateHandle ≠ some [])
    (hdead : ∀ h, r.invalidateHandle = some h → ∀ a, view s Server.normalKey h = some a → expired (E.seconds V) a) :
    ∃ s' resp, Server.Prog.run step E.now s (r.answer V E) = (s', .ok resp) ∧ resp.request = .checkAuth r ∧
      Exactly resp.fields oid (argsOf [(t!"is_valid", some t!"true"), (t!"invalidate_handle", r.invalidateHandle)]) := by
  obtain ⟨s1, a, h1⟩ := get_runs (E := E) hf hw s r.assocHandle true true
  obtain ⟨g0, g⟩ := Server.run_getAssociation hf rfl rfl h1
  obtain ⟨rfl, -⟩ := (g a rfl).2.2 b hb hx
  obtain ⟨s2, h2⟩ := drop_runs (E := E) hw s1 (Server.storeKey true) r.assocHandle
  obtain ⟨f0, hf0⟩ := Server.new_can hoid
  have hnew : Server.Response.new (.checkAuth r) = .ok ⟨.checkAuth r, f0⟩ := by
    rw [Server.Response.new]
    show (Server.lift (Msg.new r.message.getOpenIDNamespace) >>= _) = _
    rw [hns, hf0]; rfl
  have x0 := Server.new_exactly hf0
  have x0' : Exactly f0 oid (argsOf []) := x0.congr fun _ => rfl
  obtain ⟨f1, e1, -⟩ := x0.can t!"is_valid" t!"true"
  have x1 := x0'.setNew (by simp) e1
  have hset : Server.Response.set ⟨.checkAuth r, f0⟩ t!"is_valid" t!"true" = .ok ⟨.checkAuth r, f1⟩ := by
    rw [Server.Response.set, e1]; rfl
  have hsub := (Server.drop_sub hf h2).trans g0
  have head : ∀ {s' o}, Server.Prog.run step E.now s2 (Server.CheckAuthRequest.reportHandle V E ⟨.checkAuth r, f1⟩ r.invalidateHandle)
      = (s', o) → Server.Prog.run step E.now s (r.answer V E) = (s', o) := by
    intro s' o hrep
    rw [Server.CheckAuthRequest.answer, Server.run_bind, Server.verify, Server.run_bind, h1]
    simp only [Server.checkWith, hs, Server.run_pure]
    rw [Server.run_bind, Server.invalidate, h2]
    simp only
    rw [Server.run_bind, hnew]
    simp only [Server.run_done]
    rw [Server.run_bind]
    simp only [Server.run_done, if_true]
    rw [hset]
    exact hrep
  cases hi : r.invalidateHandle with
  | none =>
    rw [hi] at head
    refine ⟨s2, _, head (o := .ok ⟨.checkAuth r, f1⟩) rfl, rfl, ?_⟩
    exact x1.skip (by decide)
  | some h =>
    cases h with
    | nil => exact absurd hi hne
    | cons ch h =>
      rw [hi] at head
      obtain ⟨s3, a', h3⟩ := get_runs (E := E) hf hw s2 (ch :: h) false true
      obtain ⟨-, g'⟩ := Server.run_getAssociation hf rfl rfl h3
      obtain ⟨q1, q2, -⟩ := g' a' rfl
      cases a' with
      | some a' =>
        obtain ⟨p1, p2⟩ := q1 a' rfl
        exact absurd (hdead _ hi a' (hsub _ _ _ p1)) (p2 rfl)
      | none =>
        obtain ⟨f2, e2, -⟩ := (x1.can t!"invalidate_handle" (ch :: h))
        have hset2 : Server.Response.set ⟨.checkAuth r, f1⟩ t!"invalidate_handle" (ch :: h) = .ok ⟨.checkAuth r, f2⟩ := by
          rw [Server.Response.set, e2]; rfl
        refine ⟨s3, _, head (o := .ok ⟨.checkAuth r, f2⟩) ?_, rfl, x1.setNew (by decide) e2⟩
        rw [Server.CheckAuthRequest.reportHandle, Server.run_bind, h3]
        simp only [Server.run_done, hset2]

end

/-! ## What is asked, and what is said -/

/-- changing the mode of a message that was received -/
theorem mode_post {reg q : Dict Str Str} {m m' : Msg} (hg : Got reg m q) {x : Str}
    (h : m.setArg .openid t!"mode" x = .ok m') (K : Str) :
    m'.toPostArgs.get? K = if K = t!"openid.mode" then some x else m.toPostArgs.get? K := by
  obtain ⟨oid, ho, h1, h2, h3, h4⟩ := setArg_openid m hg.inv _ _ _ h
  split
  · next hk =>
    subst hk
    have ho' : m'.getOpenIDNamespace = some oid := by rw [Msg.getOpenIDNamespace, h1]; exact ho
    have hb : m.args.get? (.bare, t!"openid." ++ t!"mode") = none := by
      have := hg.noBare (t!"openid." ++ t!"mode") (by decide)
      simpa [Msg.getArg, Msg.fixNS] using this
    have := post_plain m' h3 oid ho' t!"mode" (by decide) (by decide) (by
      rw [h2, Dict.get?_set, if_neg (by simp)]; exact hb)
    rw [h2, Dict.get?_set, if_pos rfl] at this
    exact this
  · next hk => exact toPostArgs_set m m' _ _ _ K h1 h2 (by rw [h4]; intro e; cases e; exact hk rfl)

/-- a form, as it is read -/
theorem form_get (m : Msg) (k : Str) :
    (Dict.ofPairs (Percent.parseQsl true m.toURLEncoded)).get? k = m.toPostArgs.get? k := by
  have hw : Dict.WF m.toPostArgs := by rw [toPostArgs_eq]; exact Dict.WF_ofPairs _
  have hp := perm_sortBy KVForm.pairLe m.toPostArgs
  have hws : Dict.WF (sortBy KVForm.pairLe m.toPostArgs) := (List.Perm.nodup_iff (hp.map _)).2 hw
  rw [Msg.toURLEncoded, Props.c06_urlencode_round_trip, Dict.ofPairs, Dict.get?_update_WF _ _ hws]
  rw [Dict.get?_perm hws hp k]
  cases m.toPostArgs.get? k <;> rfl

/-- a field of an extension that was sent is found -/
theorem aliased_dotted {reg : Dict Str Str} {x f m : Msg} {oid : Str} {d : Str → Option Str} (hB : Bearer reg x oid)
    (hx : Holds x f oid d) (hd : ∀ k v, d k = some v → '.' ∉ k ∧ k ≠ t!"ns") (hc : Carried x m oid) {k v : Str} (hk : '.' ∈ k)
    (hp : f.toPostArgs.get? (t!"openid." ++ k) = some v) : ∃ v, m.getAliasedArg k = .ok (some v) := by
  have hr := hx.raw hB hd
  have hns : k ≠ t!"ns" := by rintro rfl; exact absurd hk (by decide)
  rw [Msg.getAliasedArg, if_neg hns]
  rcases (post_iff hr _ _).1 hp with ⟨h1, -, -⟩ | ⟨a, h1, h2, h3⟩ | ⟨-, h2⟩ | ⟨k', h1, h2, -, -⟩ | ⟨a, u, k', h1, h2, h3, h4, h5⟩
  · exact absurd (pre_inj (b := t!"ns") h1) hns
  · have hk' : k = t!"ns." ++ a := pre_inj (b := t!"ns." ++ a) h1
    subst hk'
    rw [hx.names] at h2 h3
    rw [if_pos ((startsWith_iff _ _).2 ⟨a, rfl⟩)]
    exact ⟨v, congrArg _ (hc.declared _ _ h2 h3)⟩
  · rw [hx.rest _ _ (by simp), hB.bare] at h2; cases h2
  · rw [pre_inj h1] at hk; exact absurd hk h2
  · have hk' := pre_inj h1
    subst hk'
    have hno : startsWith (a ++ '.' :: k') t!"ns." = false := by
      cases hs : startsWith (a ++ '.' :: k') t!"ns." with
      | false => rfl
      | true =>
        obtain ⟨z, hz⟩ := (startsWith_iff _ _).1 hs
        exact absurd (dot_split h2 nodot_ns (show a ++ '.' :: k' = t!"ns" ++ '.' :: z from hz)).1 h3
    have hne : u ≠ oid := by
      rintro rfl
      have p2 := (hx.inv.ns.bij _ _).1 h4
      have p3 := (hx.inv.ns.bij _ _).1 hr.version
      exact nomatch p2.symm.trans p3
    have hus : u ≠ t!"sreg" := by
      rintro rfl
      have := (hx.inv.ns.bij _ _).1 h4
      rw [hr.noSreg] at this; cases this
    rw [hx.rest _ _ (by simpa using hne), ← hc.args _ _ hne] at h5
    have hal : m.namespaces.aliasToNs.get? (.name a) = some u := by
      have h6 := hc.inv.known u k' ((Dict.mem_keys_iff _ _).2 (by rw [h5]; rfl))
      obtain ⟨b, hb⟩ := Option.isSome_iff_exists.1 h6
      have hb' := (hc.inv.ns.bij _ _).2 hb
      have hb2 := hc.names.sub _ _ hb'
      rw [← hx.names] at hb2
      have := ((hx.inv.ns.bij _ _).1 hb2).symm.trans ((hx.inv.ns.bij _ _).1 h4)
      cases this
      exact hb'
    rw [if_neg (by simp [hno])]
    simp only [cut_append _ _ _ h2, NamespaceMap.getNamespaceURI, hal]
    exact ⟨v, by simp [Msg.getArg, Msg.fixNS, hus, h5]⟩

/-- the question that the consumer asks about an answer, and how the provider reads it -/
theorem asks {V : Server.World} (hreg : ∀ alias uri, V.reg.get? alias = some uri → uri ≠ t!"sreg")
    {W : World} {x : Msg} {e : Endpoint} (hB : Bearer V.reg x (versionOf e)) {ownNonce current rt : Str}
    {q : Dict Str Str} {m m2 f : Msg} {nonce handle signed sig : Str} {server identity claimed invalid : Option Str}
    (hx : Holds x f (versionOf e) (argsOf (whole rt nonce server identity claimed invalid handle signed sig)))
    (hA : Arrived W x e ownNonce (whole rt nonce server identity claimed invalid handle signed sig) current rt q m m2)
    (hopen : ∀ k, q.get? (t!"openid." ++ k) = f.toPostArgs.get? (t!"openid." ++ k))
    {b : Assoc} (hb : b.checkMessageSignature V.mac f = .ok true) (hs : signed ≠ []) (hg : sig ≠ []) :
    ∃ ask, m.setArg .openid t!"mode" t!"check_authentication" = .ok ask ∧
      ∀ (E : Server.Env) (op : Option Str) (q2 : Dict Str Str), Dict.WF q2 →
        (∀ k, q2.get? k = (Dict.ofPairs (Percent.parseQsl true ask.toURLEncoded)).get? k) →
      ∃ r, Server.decode V E op q2 = .ok (some (.checkAuth r)) ∧ r.assocHandle = handle ∧ r.invalidateHandle = invalid ∧
        r.message.getOpenIDNamespace = some (versionOf e) ∧ b.checkMessageSignature V.mac r.signed = .ok true := by
  have hgm := got hA.wf hA.parsed
  obtain ⟨oid, ho⟩ := hgm.ns
  obtain ⟨ask, hask, -⟩ := setArg_ok m hgm.inv .openid t!"mode" t!"check_authentication" (.uri oid) (by simp [Msg.fixNS, ho])
  refine ⟨ask, hask, fun E op q2 hw2 hq2 => ?_⟩
  have hq : ∀ K, q2.get? K = if K = t!"openid.mode" then some t!"check_authentication" else q.get? K := by
    intro K
    rw [hq2, form_get, mode_post hgm hask]
    split
    · rfl
    · exact hA.same K
  have harg : ∀ k, k ≠ t!"mode" → arg q2 k = arg q k := by
    intro k hk
    rw [arg, hq, if_neg (by intro e; exact hk (List.append_cancel_left (as := t!"openid.") e))]; rfl
  have hd : ∀ k v, argsOf (whole rt nonce server identity claimed invalid handle signed sig) k = some v →
      '.' ∉ k ∧ k ≠ t!"ns" := fun k v h => whole_names _ _ _ _ _ _ _ _ _ _ (argsOf_mem h)
  have hargs : ∀ k, '.' ∉ k ∧ k ≠ t!"ns" → k ≠ t!"mode" → arg q2 k =
      argsOf (whole rt nonce server identity claimed invalid handle signed sig) k :=
    fun k h1 h2 => by rw [harg k h2, hA.args k h1]
  have hmode : arg q2 t!"mode" = some t!"check_authentication" := by
    rw [arg, hq, if_pos (by decide)]
  have hns : arg q2 t!"ns" ∈ [none, some OPENID1_NS, some OPENID2_NS] := by
    rw [harg _ (by decide)]; exact hA.ns
  obtain ⟨f2, -, hx2⟩ := hx.can hB t!"mode" t!"check_authentication"
  have hd2 : ∀ k v, (if t!"mode" = k then some t!"check_authentication" else
      argsOf (whole rt nonce server identity claimed invalid handle signed sig) k) = some v → '.' ∉ k ∧ k ≠ t!"ns" := by
    intro k v h
    split at h
    · next he => subst he; decide
    · exact hd k v h
  have hopen2 : ∀ k, q2.get? (t!"openid." ++ k) = f2.toPostArgs.get? (t!"openid." ++ k) := by
    intro k
    rw [hq]
    by_cases hk : k = t!"mode"
    · subst hk
      rw [if_pos (by decide), hx2.post hB hd2 _ (by decide), if_pos rfl]
    · rw [if_neg (by intro e; exact hk (List.append_cancel_left (as := t!"openid.") e)), hopen]
      by_cases hdot : '.' ∈ k
      · exact hx.dotted hB hd hx2 hd2 hdot
      · by_cases hn : k = t!"ns"
        · subst hn; rw [hx.post_ns hB hd, hx2.post_ns hB hd2]
        · rw [hx.post hB hd k ⟨hdot, hn⟩, hx2.post hB hd2 k ⟨hdot, hn⟩, if_neg (Ne.symm hk)]
  obtain ⟨mq, hmq, -⟩ := hx2.arrives hB hd2 hw2 hopen2
  have hg2 := got hw2 hmq
  obtain ⟨oid2, ho2⟩ := hg2.ns
  obtain ⟨sg, hsg, -⟩ := setArg_ok mq hg2.inv .openid t!"mode" t!"id_res" (.uri oid2) (by simp [Msg.fixNS, ho2])
  obtain ⟨-, hsame⟩ := Props.c07_roundtrip V.reg q2 hw2 hreg (by
    intro alias uri hu
    exact hx2.noDecl hB hd2 ((hopen2 (t!"ns." ++ alias)).symm.trans hu)) mq hmq
  have hsame : ∀ k, mq.toPostArgs.get? k = q2.get? k := hsame
  have hsgp : ∀ k, sg.toPostArgs.get? (t!"openid." ++ k) = f.toPostArgs.get? (t!"openid." ++ k) := by
    intro k
    rw [mode_post hg2 hsg, hsame, hq]
    by_cases hk : k = t!"mode"
    · subst hk
      rw [if_pos (by decide), hx.post hB hd _ (by decide)]; rfl
    · have : t!"openid." ++ k ≠ t!"openid.mode" := by
        intro e; exact hk (List.append_cancel_left (as := t!"openid.") e)
      rw [if_neg this, if_neg this, hopen]
  refine ⟨⟨mq, handle, sg, invalid⟩, (Props.c34_checkauth V E op q2 hw2 _).2 ⟨hmode, ⟨sig, ?_⟩, ?_, ?_, hmq, hsg⟩, rfl, rfl, ?_, ?_⟩
  · rw [hargs _ (by decide) (by decide)]; rfl
  · rw [hargs _ (by decide) (by decide)]; rfl
  · rw [hargs _ (by decide) (by decide)]; rfl
  · have h1 := versions_of hw2 hmq hns
    have h2 : IsV1 q2 ↔ versionOf e = t!"http://openid.net/signon/1.0" := by
      rw [← hA.v1, IsV1, IsV1, harg _ (by decide)]
    rcases h1 with ⟨h1, h3, -⟩ | ⟨h1, h3, -⟩
    · rw [(Props.version_cases e).resolve_right fun h => h3 (h2.2 h)]; exact h1
    · rw [h2.1 h3]; exact h1
  · obtain ⟨h1, kv, h2, h3⟩ := (Props.c13_accepts_iff V.mac b f sig signed (by rw [hx.getArg hB]; rfl) hg (by rw [hx.getArg hB]; rfl) hs).1 hb
    have hget : ∀ k, '.' ∉ k → k ≠ t!"ns" → k ≠ t!"mode" → sg.getArg .openid k =
        .ok (argsOf (whole rt nonce server identity claimed invalid handle signed sig) k) := by
      intro k k1 k2 k3
      rw [← hargs k ⟨k1, k2⟩ k3, ← hg2.get k k1 k2]
      obtain ⟨o, p1, p2, p3, -, -⟩ := setArg_openid mq hg2.inv _ _ _ hsg
      have p4 : sg.getOpenIDNamespace = some o := by rw [Msg.getOpenIDNamespace, p2]; exact p1
      simp [Msg.getArg, Msg.fixNS, p1, p4, p3, Dict.get?_set, Ne.symm k3]
    refine (Props.c13_accepts_iff V.mac b sg sig signed ?_ hg ?_ hs).2 ⟨h1, kv, ?_, h3⟩
    · rw [hget _ (by decide) (by decide) (by decide)]; rfl
    · rw [hget _ (by decide) (by decide) (by decide)]; rfl
    · rw [← h2]
      congr 1
      apply List.map_congr_left
      intro k _
      rw [hsgp]

/-- the reply to it, and how the consumer reads that -/
theorem replied {W : World} {resp : Server.Response} {r : Server.CheckAuthRequest} (hreq : resp.request = .checkAuth r)
    {e : Endpoint} {inv : Option Str} (hc : ∀ h, inv = some h → Server.Clean h)
    (hx : Exactly resp.fields (versionOf e) (argsOf [(t!"is_valid", some t!"true"), (t!"invalidate_handle", inv)])) :
    ∃ kv response, Server.encode resp = .ok ⟨200, none, kv⟩ ∧
      httpResponseToMessage W ⟨200, Utf8.encode kv⟩ = .ok response ∧
      response.getArg .openid t!"is_valid" = .ok (some t!"true") ∧
      response.getArg .openid t!"invalidate_handle" = .ok inv := by
  have hcase : ∀ k v, argsOf [(t!"is_valid", some t!"true"), (t!"invalidate_handle", inv)] k = some v →
      k ∈ [t!"is_valid", t!"invalidate_handle"] ∧ Server.Clean v := by
    intro k v h
    have hm := argsOf_mem h
    simp only [List.mem_cons, Prod.mk.injEq, Option.some.injEq, List.not_mem_nil, or_false] at hm
    rcases hm with ⟨rfl, rfl⟩ | ⟨rfl, hm⟩
    · exact ⟨by simp, Server.clean_of (by decide)⟩
    · exact ⟨by simp, hc v hm.symm⟩
  have hkk : ∀ k ∈ [t!"is_valid", t!"invalidate_handle"], (∀ c ∈ k, isSpace c = false) ∧ ':' ∉ k ∧ '.' ∉ k ∧ k ≠ t!"ns" := by
    decide +kernel
  obtain ⟨kv, d', e1, e2, e3, e4⟩ := Server.kv_transport (carries_of hx) (by
    rcases Props.version_cases e with h | h <;> rw [h] <;> decide) (fun k v h => by
    obtain ⟨c1, c2⟩ := hcase k v h
    obtain ⟨c3, c4, -⟩ := hkk k c1
    exact ⟨Server.clean_of c3, c4, c2⟩)
  have hnsn : argsOf [(t!"is_valid", some t!"true"), (t!"invalidate_handle", inv)] t!"ns" = none := rfl
  have hdns : d'.get? t!"ns" = none ∨ d'.get? t!"ns" = some OPENID2_NS := by
    rw [e4, hnsn, Option.none_or]
    rcases Props.version_cases e with h | h <;> rw [h] <;> decide
  obtain ⟨response, x1, x2⟩ := Server.plain_exactly (reg := W.reg) e3 (by
    intro k hk
    have : d'.get? k ≠ none := by
      intro hc
      exact absurd hk ((Dict.get?_none_iff d' k).1 hc)
    rw [e4] at this
    cases hc : argsOf [(t!"is_valid", some t!"true"), (t!"invalidate_handle", inv)] k with
    | some v => exact (hkk k (hcase k v hc).1).2.2.1
    | none =>
      rw [hc, Option.none_or] at this
      split at this
      · next h => rw [h.1]; decide
      · simp at this) hdns
  refine ⟨kv, response, (Props.c52_direct resp (by rw [hreq]; simp) _).2 ⟨kv, e1, rfl⟩, ?_, ?_, ?_⟩
  · simp [httpResponseToMessage, Utf8.decode_encode, fromKVForm, e2, x1, Consumer.lift]
  · rw [x2.getArg, if_neg (by decide), e4, if_neg (fun h => absurd h.1 (by decide)), Option.or_none]; rfl
  · rw [x2.getArg, if_neg (by decide), e4, if_neg (fun h => absurd h.1 (by decide)), Option.or_none]; rfl

end Honest
