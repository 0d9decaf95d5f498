import Verif.Lemmas.MessageDecl
import Verif.Props.Authentic
import Verif.Props.ConsumerSigned
import Verif.Props.Transport
import Verif.Props.Honest
import Verif.Props.ConsumerAccepts
/-! # C65: the data of extensions -/

namespace Props
open Py Message Association Cryptutil Store Discover Spec

/-- **C65** What a consumer takes as signed data of an extension is, in OpenID 2, exactly what the provider put into the
    response for that extension: nothing is added, changed, taken away or moved to another extension. -/
theorem c65_extension {σ : Type} (V : Server.World) (step : σ → Event → σ × Outcome) (view : σ → AssocMap)
    (hf : Faithful V.clock step view) (s : σ) (hs : NonePrivate view s) (hist : List (Server.Env × Call)) (y : Seen)
    (hy : y ∈ (serve V step s hist).1) (r resp : Server.Response) (hc : y.call = .sign r)
    (hr : y.reply = .ok (.response resp)) {W : Consumer.World} {C : Consumer.Conf}
    (hb : Built V.reg r.fields) (hse : Sendable W.reg r.fields t!"http://specs.openid.net/auth/2.0")
    (hn : ∀ k v, r.fields.toPostArgs.get? (t!"openid." ++ k) = some v → ',' ∉ k)
    {x : Completion} (hx : x.Ran W C) {s' : Consumer.UserSession} {e : Endpoint} {m : Msg} {signed : List Str}
    (hok : x.result = .ok (s', .ok (.success e m signed))) (hno : NoneSreg W.reg V.reg x.query)
    (hvo : Vouched x.query resp.fields) (hva : VouchedAll x.query resp.fields) (u key v : Str) (hu : u ∉ [[], t!"sreg", t!"http://openid.net/signon/1.0",
      t!"http://openid.net/signon/1.1", t!"http://specs.openid.net/auth/2.0"]) (hv : v ≠ []) :
    Consumer.getSigned m signed (.uri u) key = .ok (some v) ↔ r.fields.getArg (.uri u) key = .ok (some v) := by
  obtain ⟨hwf, hruns⟩ := hx
  rw [hok] at hruns
  have hver := c37_success hwf hruns
  obtain ⟨l, hl, rfl, -⟩ := hver.signed
  have harr : Arrived W.reg x.query m := ⟨hwf, hver.message, hno.1, hno.2.2⟩
  obtain ⟨s1, s2, hrun⟩ := issued_run hf hs hy hc hr
  have hi := minv_built _ _ hb
  obtain ⟨l', hl', hin, -, hval⟩ := Authentic.issued_shape hf hi hrun
  obtain ⟨l1, hl1, hall⟩ := hva
  rw [hl'] at hl1; cases hl1
  obtain ⟨l1, hq1, hl1, -⟩ := hvo.list
  rw [hl'] at hl1; cases hl1
  rw [hl] at hq1; cases hq1
  have hraw := raw_of hi hse
  simp only [List.mem_cons, List.not_mem_nil, or_false, not_or] at hu
  obtain ⟨hu0, hus, -, -, hu2⟩ := hu
  -- what the provider put in is listed and arrived
  have H : ∀ k w, k ∉ [t!"assoc_handle", t!"signed", t!"sig", t!"invalidate_handle"] →
      r.fields.toPostArgs.get? (t!"openid." ++ k) = some w → k ∈ splitOn ',' l ∧ (arg x.query k).getD [] = w := by
    intro k w hk hw
    have hkl := hin k w (hn k w hw) (by rintro rfl; exact hk (by simp)) hw
    refine ⟨hkl, ?_⟩
    rw [hall k hkl, hval k hk, hw]; rfl
  have hsome : ∀ {o : Option Str} {w : Str}, o.getD [] = w → w ≠ [] → o = some w := by
    intro o w h hw
    cases o with
    | none => exact absurd h.symm hw
    | some z => simp at h; rw [h]
  have hdot : ∀ a k : Str, a ++ '.' :: k ∉ [t!"assoc_handle", t!"signed", t!"sig", t!"invalidate_handle"] := by
    intro a k h
    have : '.' ∈ a ++ '.' :: k := by simp
    simp only [List.mem_cons, List.not_mem_nil, or_false] at h
    rcases h with h | h | h | h <;> rw [h] at this <;> revert this <;> decide
  have himp : r.fields.namespaces.isImplicit OPENID2_NS = false := by
    cases e : r.fields.namespaces.isImplicit OPENID2_NS with
    | false => rfl
    | true => exact absurd (hraw.undeclared e) (by decide)
  have hq2 : x.query.get? t!"openid.ns" = some OPENID2_NS := by
    have := (H t!"ns" OPENID2_NS (by decide) ((post_iff hraw _ _).2 (.version rfl rfl himp))).2
    exact hsome this (by decide)
  have hm2 := implicit_two hwf hver.message hq2
  have hone : r.fields.isOpenID1 = false := by
    rw [Msg.isOpenID1, hse.version]; decide
  have hown : ∀ a w, r.fields.namespaces.aliasToNs.get? (.name a) = some w → w ≠ OPENID2_NS := by
    rintro a w h rfl
    have h1 := (hi.ns.bij _ _).1 h
    have h2 := (hi.ns.bij _ _).1 hraw.version
    exact nomatch h1.symm.trans h2
  have hdeclr : ∀ a w k z, r.fields.namespaces.aliasToNs.get? (.name a) = some w →
      r.fields.args.get? (.uri w, k) = some z → (arg x.query (t!"ns." ++ a)).getD [] = w := by
    intro a w k z h1 h2
    have hni : r.fields.namespaces.isImplicit w = false := by
      cases e : r.fields.namespaces.isImplicit w with
      | false => rfl
      | true =>
        have := (hraw.implied w k z (hown a w h1) h2 e).1
        rw [hone] at this; cases this
    exact (H (t!"ns" ++ '.' :: a) w (hdot _ _) ((post_iff hraw _ _).2 (.decl a rfl h1 hni))).2
  have hfixm : m.fixNS (.uri u) = .ok (.uri u) := by simp [Msg.fixNS, hus]
  have hfixr : r.fields.fixNS (.uri u) = .ok (.uri u) := by simp [Msg.fixNS, hus]
  obtain ⟨hmi, hperm⟩ := roundtrip_pairs W.reg x.query hwf hno.1
    (fun k w hkw => hno.2.2 k w (Dict.get?_of_mem _ hwf _ _ hkw)) m hver.message
  constructor
  · intro hg
    obtain ⟨hga, f, hfl, hkey, hqf, -⟩ := c39_getSigned harr _ (.uri u) key v hg
    rw [Msg.getArg, hfixm] at hga
    rw [Msg.getKey, hfixm] at hkey
    simp only [ok_bind, pure_eq_ok, Except.ok.injEq] at hga hkey
    rw [Msg.keyOf] at hkey
    split at hkey
    · cases hkey
    · next e =>
      have h2 := (hmi.ns.bij _ _).2 e
      have h3 := (fromPostArgs_has hwf hver.message).1.ns
      rw [hq2] at h3
      exact absurd (Option.some.inj (h2.symm.trans h3)) hu2
    · next a e =>
      simp only [Option.some.injEq, List.append_assoc] at hkey
      have hfe : f = a ++ '.' :: key := (List.append_cancel_left hkey).symm
      subst hfe
      have hok := ok_name (hmi.ns.ok _ _ ((hmi.ns.bij _ _).2 e))
      have hqd : arg x.query (t!"ns." ++ a) = some u := by
        refine Dict.get?_of_mem _ hwf _ _ (hperm.mem_iff.1 (List.mem_append_left _ ((mem_nsPairs_iff hmi.ns).2 ⟨_, e, rfl, ?_⟩)))
        rw [NamespaceMap.isImplicit, hm2]; rfl
      have hrv : r.fields.toPostArgs.get? (t!"openid." ++ (a ++ '.' :: key)) = some v := by
        have := hall _ hfl
        rw [hval _ (hdot _ _), arg, hqf] at this
        exact hsome this.symm hv
      obtain ⟨w, h1, h2⟩ := sent_ext hok.1 hok.2 ((post_iff hraw _ _).1 hrv)
      have := hdeclr a w key v h1 h2
      rw [hqd] at this
      simp only [Option.getD_some] at this
      subst this
      rw [Msg.getArg, hfixr]
      simp only [ok_bind, pure_eq_ok, h2]
  · intro hg
    rw [Msg.getArg, hfixr] at hg
    simp only [ok_bind, pure_eq_ok, Except.ok.injEq] at hg
    obtain ⟨al, hal⟩ := Option.isSome_iff_exists.1 (hi.known u key ((Dict.mem_keys_iff _ _).2 (by rw [hg]; rfl)))
    have hla := (hi.ns.bij _ _).2 hal
    cases al with
    | null => rw [hraw.version] at hla; cases hla; exact absurd rfl hu2
    | name a =>
      have hok := ok_name (hi.ns.ok _ _ hla)
      have hd := hsome (hdeclr a u key v hla hg) hu0
      obtain ⟨hkl, hqv⟩ := H (a ++ '.' :: key) v (hdot _ _) ((post_iff hraw _ _).2 (.ext a u key rfl hok.1 hok.2 hla hg))
      obtain ⟨g1, g2⟩ := fromPostArgs_declared hwf hno.1 hno.2.2 hver.message (a := a) (u := u) hd
      refine c39_getSigned_complete harr _ _ _ _ (a ++ '.' :: key) ?_ ?_ hkl
      · rw [Msg.getArg, hfixm]
        simp only [ok_bind, pure_eq_ok, g2 key]
        exact congrArg _ (hsome hqv hv)
      · rw [Msg.getKey, hfixm]
        simp only [ok_bind, pure_eq_ok, Msg.keyOf, NamespaceMap.getAlias, (hmi.ns.bij _ _).1 g1, List.append_assoc]

/-- **C65** The same for all of an extension's data at once: where the consumer is given it (`None` is for an extension of
    which something is not signed), it is what the provider put in. -/
theorem c65_extension_all {σ : Type} (V : Server.World) (step : σ → Event → σ × Outcome) (view : σ → AssocMap)
    (hf : Faithful V.clock step view) (s : σ) (hs : NonePrivate view s) (hist : List (Server.Env × Call)) (y : Seen)
    (hy : y ∈ (serve V step s hist).1) (r resp : Server.Response) (hc : y.call = .sign r)
    (hr : y.reply = .ok (.response resp)) {W : Consumer.World} {C : Consumer.Conf}
    (hb : Built V.reg r.fields) (hse : Sendable W.reg r.fields t!"http://specs.openid.net/auth/2.0")
    (hn : ∀ k v, r.fields.toPostArgs.get? (t!"openid." ++ k) = some v → ',' ∉ k)
    {x : Completion} (hx : x.Ran W C) {s' : Consumer.UserSession} {e : Endpoint} {m : Msg} {signed : List Str}
    (hok : x.result = .ok (s', .ok (.success e m signed))) (hno : NoneSreg W.reg V.reg x.query)
    (hvo : Vouched x.query resp.fields) (hva : VouchedAll x.query resp.fields) (u : Str)
    (hu : u ∉ [[], t!"sreg", t!"http://openid.net/signon/1.0",
      t!"http://openid.net/signon/1.1", t!"http://specs.openid.net/auth/2.0"]) (d : Dict Str Str)
    (hd : Consumer.getSignedNS m signed (.uri u) = .ok (some d)) (key v : Str) (hv : v ≠ []) :
    d.get? key = some v ↔ r.fields.getArg (.uri u) key = .ok (some v) := by
  rw [← c65_extension V step view hf s hs hist y hy r resp hc hr hb hse hn hx hok hno hvo hva u key v hu hv]
  have hruns := hx.2
  rw [hok] at hruns
  have hver := c37_success hx.1 hruns
  obtain ⟨l, -, rfl, -⟩ := hver.signed
  have harr : Arrived W.reg x.query m := ⟨hx.1, hver.message, hno.1, hno.2.2⟩
  obtain ⟨-, h1, h2⟩ := c39_getSignedNS harr _ _ d hd
  constructor
  · intro h
    obtain ⟨f, hfl, hk, -⟩ := h2 key v h
    exact c39_getSigned_complete harr _ _ _ _ f (by rw [h1, h]) hk hfl
  · intro h
    have := (c39_getSigned harr _ _ _ _ h).1
    rw [h1] at this
    exact Except.ok.inj this

/-! a positive answer with an extension, signed with the shared association, and the query that brings it -/

def extFields0 : Msg :=
  match (do
    let m ← (← Msg.new (some OPENID2_NS)).updateArgs .openid
      [(t!"mode", t!"id_res"), (t!"op_endpoint", t!"http://op.example/"), (t!"claimed_id", t!"http://u.example/"),
       (t!"identity", t!"http://op.example/u"), (t!"return_to", t!"http://rp.example/back?x=1"),
       (t!"response_nonce", t!"2005-05-15T17:11:51Zaa")]
    m.addExtension t!"http://ext.example/" t!"e" [(t!"email", t!"a@b.example"), (t!"colour.name", t!"red")] :
      Except PyErr Msg) with
  | .ok m => m
  | .error _ => {}

def extAnswer0 : Server.Response := ⟨.checkId { checkid0 (some t!"h") with }, extFields0⟩

def extSigned0 : Server.Response :=
  match (Server.Prog.run (MemStore.keptStep clock0) 5000 pstore0 (Server.sign sworld0 senv0 extAnswer0)).2 with
  | .ok r => r
  | .error _ => extAnswer0

def extArrived0 : Dict Str Str := extSigned0.fields.toPostArgs ++ [(t!"x", t!"1")]

def extTold0 : Except Consumer.Err (Consumer.UserSession × Except Consumer.Err Consumer.Response) → Bool
  | .ok (_, .ok (.success _ m signed)) =>
    decide ((Consumer.getSigned m signed (.uri t!"http://ext.example/") t!"colour.name").toOption = some (some t!"red"))
  | _ => false

theorem extTold0_iff {r} (h : extTold0 r = true) : ∃ s' e m signed, r = .ok (s', .ok (.success e m signed)) ∧
    Consumer.getSigned m signed (.uri t!"http://ext.example/") t!"colour.name" = .ok (some t!"red") := by
  unfold extTold0 at h
  split at h
  · next s' e m signed =>
    refine ⟨s', e, m, signed, rfl, ?_⟩
    have h2 := of_decide_eq_true h
    cases hg : Consumer.getSigned m signed (.uri t!"http://ext.example/") t!"colour.name" with
    | error _ => rw [hg] at h2; cases h2
    | ok o => rw [hg] at h2; exact congrArg _ (Option.some.inj h2)
  · cases h

theorem extRan0 : ∃ r, Consumer.Runs (Consumer.complete cworld0 cconf0 cenv0 ⟨some endpoint0, none⟩ extArrived0
      t!"http://rp.example/back") cevs0 r ∧ extTold0 r = true := check_play (by decide +kernel)

theorem extServed0 : (Server.Prog.run (MemStore.keptStep clock0) 5000 pstore0 (Server.sign sworld0 senv0 extAnswer0)).2 =
    .ok extSigned0 := by
  have : (Server.Prog.run (MemStore.keptStep clock0) 5000 pstore0 (Server.sign sworld0 senv0 extAnswer0)).2.toOption.isSome =
    true := by decide +kernel
  unfold extSigned0
  split
  · next h => exact h
  · next h => rw [h] at this; cases this

theorem extBuilt0 : Built sworld0.reg extFields0 := by
  have h1 : ∀ m : Msg, Built sworld0.reg m → ∀ kvs m', m.updateArgs .openid kvs = .ok m' → Built sworld0.reg m' := by
    intro m hm kvs m' h
    have := Built.step m (.update .openid kvs) hm
    rw [msgStep, h] at this
    exact this
  unfold extFields0
  split
  · next m h =>
    obtain ⟨m1, g1, h⟩ := bind_eq_ok.1 h
    obtain ⟨m2, g2, h⟩ := bind_eq_ok.1 h
    exact .extended _ _ _ _ _ (h1 _ (.new _ _ _ g1) _ _ g2) h
  · next e h =>
    have h2 : (Except.error e : Except PyErr Msg).toOption.isSome = true := by rw [← h]; decide +kernel
    cases h2

example : ∃ (y : Seen) (x : Completion) (s' : Consumer.UserSession) (e : Endpoint) (m : Msg) (signed : List Str),
    y ∈ (serve sworld0 (MemStore.keptStep clock0) pstore0 [(senv0, .sign extAnswer0)]).1 ∧
    y.call = .sign extAnswer0 ∧ y.reply = .ok (.response extSigned0) ∧ NonePrivate MemStore.keptView pstore0 ∧
    Built sworld0.reg extAnswer0.fields ∧
    Sendable cworld0.reg extAnswer0.fields t!"http://specs.openid.net/auth/2.0" ∧
    (∀ k v, extAnswer0.fields.toPostArgs.get? (t!"openid." ++ k) = some v → ',' ∉ k) ∧
    x.Ran cworld0 cconf0 ∧ x.result = .ok (s', .ok (.success e m signed)) ∧
    NoneSreg cworld0.reg sworld0.reg x.query ∧ Vouched x.query extSigned0.fields ∧ VouchedAll x.query extSigned0.fields ∧
    Consumer.getSigned m signed (.uri t!"http://ext.example/") t!"colour.name" = .ok (some t!"red") := by
  obtain ⟨r, h1, h2⟩ := extRan0
  obtain ⟨s', e, m, signed, rfl, h3⟩ := extTold0_iff h2
  have hwf : Dict.WF extArrived0 := by unfold Dict.WF; decide +kernel
  have hargs : ∀ p ∈ extFields0.args, p.1.1 ≠ .bare ∧ (p.1.1 = .uri OPENID2_NS → '.' ∉ p.1.2 ∧ p.1.2 ≠ t!"ns") := by
    decide +kernel
  have hkeys : ∀ p ∈ extFields0.toPostArgs, ',' ∉ p.1 := by decide +kernel
  have hvals : ∀ p ∈ extArrived0, p.2 ≠ t!"sreg" := by decide +kernel
  refine ⟨⟨senv0, .sign extAnswer0, .ok (.response extSigned0)⟩, ⟨cenv0, ⟨some endpoint0, none⟩, extArrived0,
    t!"http://rp.example/back", cevs0, _⟩, s', e, m, signed, ?_, rfl, rfl, ?_, extBuilt0, ?_, ?_, ⟨hwf, h1⟩, rfl, ?_, ?_, ?_, h3⟩
  · have := extServed0
    rcases hrun : Server.Prog.run (MemStore.keptStep clock0) 5000 pstore0 (Server.sign sworld0 senv0 extAnswer0) with ⟨s1, o⟩
    rw [hrun] at this
    subst this
    have hrun' : Server.Prog.run (MemStore.keptStep clock0) senv0.now pstore0 (Server.sign sworld0 senv0 extAnswer0) =
      (s1, .ok extSigned0) := hrun
    simp only [serve, Call.prog, Server.run_bind, hrun', Server.run_pure, List.mem_singleton]
  · intro h
    rfl
  · refine ⟨by decide +kernel, fun h => absurd h (by decide +kernel), fun k v h => ?_, fun k v h => ?_, fun u k v _ _ h => ?_,
      by decide +kernel⟩
    · rw [Msg.getArg] at h
      have hf : extAnswer0.fields.fixNS .openid = .ok (.uri OPENID2_NS) := by decide +kernel
      rw [hf] at h
      exact (hargs _ (Dict.get?_mem _ _ _ (Except.ok.inj h))).2 rfl
    · exact absurd rfl (hargs _ (Dict.get?_mem _ _ _ (Except.ok.inj h))).1
    · have : extFields0.namespaces.implicit = [] := by decide +kernel
      rw [NamespaceMap.isImplicit] at h
      change extFields0.namespaces.implicit.contains u = true at h
      rw [this] at h; cases h
  · intro k v h
    have := hkeys _ (Dict.get?_mem _ _ _ h)
    intro hc; exact this (List.mem_append_right _ hc)
  · refine ⟨fun _ _ h => ?_, fun _ _ h => ?_, fun a u h => hvals _ (Dict.get?_mem _ _ _ h)⟩ <;> cases h
  · have hv : decide (IsV1 extArrived0) = false := by decide +kernel
    have hs : ∀ k ∈ splitOn ',' ((arg extArrived0 t!"signed").getD []), '.' ∉ k → (arg extArrived0 k).getD [] =
        (extSigned0.fields.toPostArgs.get? (t!"openid." ++ k)).getD [] := by decide +kernel
    refine ⟨⟨(arg extArrived0 t!"signed").getD [], ?_, ?_, hs⟩, ?_⟩
    · show arg extArrived0 t!"signed" = _
      decide +kernel
    · decide +kernel
    have : ∀ k ∈ neededSigned false, extSigned0.fields.toPostArgs.get? (t!"openid." ++ k) = arg extArrived0 k := by
      decide +kernel
    intro k hk v h _
    rw [hv] at hk
    rw [this k hk]; exact h
  · have hs : ∀ k ∈ splitOn ',' ((arg extArrived0 t!"signed").getD []), (arg extArrived0 k).getD [] =
        (extSigned0.fields.toPostArgs.get? (t!"openid." ++ k)).getD [] := by decide +kernel
    exact ⟨(arg extArrived0 t!"signed").getD [], by decide +kernel, hs⟩

/-! ## OpenID 1 -/

def sregWorld0 : Consumer.World := { cworld0 with reg := [(t!"sreg", t!"http://openid.net/extensions/sreg/1.1")] }

def oneFields0 : Msg :=
  match (do
    let m ← (← Msg.new (some OPENID1_NS)).updateArgs .openid
      [(t!"mode", t!"id_res"), (t!"identity", t!"http://op.example/u"),
       (t!"return_to", t!"http://rp.example/back?janrain_nonce=2005-05-15T17%3A11%3A51Zaa")]
    m.addExtension t!"http://openid.net/extensions/sreg/1.1" t!"sreg" [(t!"email", t!"a@b.example")] : Except PyErr Msg) with
  | .ok m => m
  | .error _ => {}

def oneAnswer0 : Server.Response := ⟨.checkId (checkid0 (some t!"h")), oneFields0⟩

def oneSigned0 : Server.Response :=
  match (Server.Prog.run (MemStore.keptStep clock0) 5000 pstore0 (Server.sign sworld0 senv0 oneAnswer0)).2 with
  | .ok r => r
  | .error _ => oneAnswer0

def oneEndpoint0 : Endpoint :=
  ⟨some t!"http://u.example/", t!"http://op.example/", [OPENID_1_1_TYPE], some t!"http://op.example/u", none, true, none⟩

def relabelled0 : Dict Str Str := oneSigned0.fields.toPostArgs ++
  [(t!"janrain_nonce", t!"2005-05-15T17:11:51Zaa"), (t!"openid.ns.sreg", t!"http://other.example/")]

def oneEvs0 : List Consumer.Ev :=
  [.store (.getAssociation t!"http://op.example/" (some t!"h")) (.ok (.assoc (some cassoc0))),
   .store (.useNonce [] 1116177111 t!"aa") (.ok (.bool true))]

def oneTold0 : Except Consumer.Err (Consumer.UserSession × Except Consumer.Err Consumer.Response) → Bool
  | .ok (_, .ok (.success _ m signed)) =>
    decide ((Consumer.getSigned m signed (.uri t!"http://other.example/") t!"email").toOption = some (some t!"a@b.example") ∧
      (Consumer.getSigned m signed (.uri t!"http://openid.net/extensions/sreg/1.1") t!"email").toOption = some none)
  | _ => false

/-- **C65** Not so in OpenID 1, where a well-known extension need not be declared: the declaration is then not signed, and
    one that is added on the way moves the signed data to another extension.  The provider signs an e-mail address of simple
    registration; the consumer succeeds, and takes it for signed data of `http://other.example/`. -/
theorem c65_openid1_relabelled :
    (Server.Prog.run (MemStore.keptStep clock0) 5000 pstore0 (Server.sign sworld0 senv0 oneAnswer0)).2 = .ok oneSigned0 ∧
    oneAnswer0.fields.getArg (.uri t!"http://openid.net/extensions/sreg/1.1") t!"email" = .ok (some t!"a@b.example") ∧
    oneAnswer0.fields.getArg (.uri t!"http://other.example/") t!"email" = .ok none ∧
    (∀ p, p ∈ relabelled0 ↔ p ∈ oneSigned0.fields.toPostArgs ∨
      p = (t!"janrain_nonce", t!"2005-05-15T17:11:51Zaa") ∨ p = (t!"openid.ns.sreg", t!"http://other.example/")) ∧
    ∃ r, Consumer.Runs (Consumer.complete sregWorld0 cconf0 cenv0 ⟨some oneEndpoint0, none⟩ relabelled0
      t!"http://rp.example/back?janrain_nonce=2005-05-15T17%3A11%3A51Zaa") oneEvs0 r ∧ oneTold0 r = true := by
  refine ⟨?_, by decide +kernel, by decide +kernel, fun p => by simp [relabelled0], check_play (by decide +kernel)⟩
  have : (Server.Prog.run (MemStore.keptStep clock0) 5000 pstore0 (Server.sign sworld0 senv0 oneAnswer0)).2.toOption.isSome =
    true := by decide +kernel
  unfold oneSigned0
  split
  · next h => exact h
  · next h => rw [h] at this; cases this

end Props
