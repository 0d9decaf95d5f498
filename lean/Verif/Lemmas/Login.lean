import Verif.Props.Associate
import Verif.Props.Serve
import Verif.Props.Honest
import Verif.Lemmas.BeginRaise
import Verif.Lemmas.Frame
import Verif.Spec.Login
/-! # Programs of a relying party in a live world -/

namespace Props
open Py Message Association Cryptutil Store Discover Consumer Spec DH

section
variable {σ τ : Type} {step : σ → Event → σ × Outcome} {now : Nat} {serve : τ → Str → Str → τ × Except PyErr Http}
  {disc : Str → Except PyErr (Str × List Endpoint)}

theorem live_handle {α β : Type} (p : Consumer.Prog α) (f : Except Consumer.Err α → Consumer.Prog β) (s : σ) (t : τ) :
    live step now serve disc (p.handle f) s t =
      live step now serve disc (f (live step now serve disc p s t).2) (live step now serve disc p s t).1.1
        (live step now serve disc p s t).1.2 := by
  induction p generalizing s t with
  | done r => rfl
  | store op k ih => simp only [Consumer.Prog.handle, live]; exact ih _ _ _
  | post u b k ih => simp only [Consumer.Prog.handle, live]; exact ih _ _ _
  | discover i k ih => simp only [Consumer.Prog.handle, live]; exact ih _ _ _

theorem live_bind {α β : Type} {p : Consumer.Prog α} {f : α → Consumer.Prog β} {s s' : σ} {t t' : τ} {a : α}
    (h : live step now serve disc p s t = ((s', t'), .ok a)) :
    live step now serve disc (p >>= f) s t = live step now serve disc (f a) s' t' := by
  rw [show (p >>= f) = p.handle _ from rfl, live_handle, h]

/-- the calls of a live run -/
theorem live_runs {α : Type} (p : Consumer.Prog α) (s : σ) (t : τ) :
    ∃ evs, Runs p evs (live step now serve disc p s t).2 := by
  induction p generalizing s t with
  | done r => exact ⟨[], rfl, rfl⟩
  | store op k ih => obtain ⟨evs, h⟩ := ih (step s (now, op)).2 (step s (now, op)).1 t; exact ⟨_, _, _, rfl, h⟩
  | post u b k ih => obtain ⟨evs, h⟩ := ih (serve t u b).2 s (serve t u b).1; exact ⟨_, _, _, rfl, h⟩
  | discover i k ih => obtain ⟨evs, h⟩ := ih (disc i) s t; exact ⟨_, _, _, rfl, h⟩

variable (step now serve disc) in
/-- these calls come to this in the live world -/
def Happens : List Ev → σ → τ → σ → τ → Prop
  | [], s, t, s', t' => s = s' ∧ t = t'
  | .store op o :: rest, s, t, s', t' => (step s (now, op)).2 = o ∧ Happens rest (step s (now, op)).1 t s' t'
  | .post u b o :: rest, s, t, s', t' => (serve t u b).2 = o ∧ Happens rest s (serve t u b).1 s' t'
  | .discover i o :: rest, s, t, s', t' => disc i = o ∧ Happens rest s t s' t'

theorem live_of_runs {α : Type} {p : Consumer.Prog α} {evs : List Ev} {r : Except Consumer.Err α} {s s' : σ} {t t' : τ}
    (h : Runs p evs r) (hh : Happens step now serve disc evs s t s' t') :
    live step now serve disc p s t = ((s', t'), r) := by
  induction p generalizing evs s t with
  | done r' =>
    obtain ⟨rfl, rfl⟩ := h
    obtain ⟨rfl, rfl⟩ := hh
    rfl
  | store op k ih =>
    obtain ⟨o, rest, rfl, h⟩ := h
    obtain ⟨rfl, hh⟩ := hh
    exact ih _ h hh
  | post u b k ih =>
    obtain ⟨o, rest, rfl, h⟩ := h
    obtain ⟨rfl, hh⟩ := hh
    exact ih _ h hh
  | discover i k ih =>
    obtain ⟨o, rest, rfl, h⟩ := h
    obtain ⟨rfl, hh⟩ := hh
    exact ih _ h hh

end

theorem permits_fits {n : List (Str × Str)} {a t : Str} (h : Permits n a t) : SessionFits t a := by
  unfold SessionFits
  rcases h.2 with ⟨rfl, rfl | rfl⟩ | ⟨rfl, rfl | rfl⟩ <;> simp

theorem argsOf_none {l : List (Str × Option Str)} {k : Str} (h : ∀ v, (k, some v) ∉ l) : argsOf l k = none := by
  cases hc : argsOf l k with
  | none => rfl
  | some v => exact absurd (argsOf_some hc) (h v)

/-- the page of an association -/
theorem associate_page {σ : Type} {W : Server.World} {E : Server.Env} {step : σ → Event → σ × Outcome} {view : σ → AssocMap}
    (hf : Faithful W.clock step view) (hw : NeverFails step) (hz : Sized W E) {op : Option Str} {n : Negotiator}
    {text : Server.Reason → Option Msg → Str} {q : Dict Str Str} (hq : Dict.WF q) {r : Server.AssociateRequest}
    (hd : Server.decode W E op q = .ok (some (.associate r))) (hp : Permits n r.assocType r.session.sessionType)
    (hk : SessionOk W.lib r.session) (s : σ) :
    ∃ s' resp kv, Server.Prog.run step E.now s (Server.openidAssociate W E n r) = (s', .ok resp) ∧
      Server.encode resp = .ok ⟨200, none, kv⟩ ∧
      Server.Prog.run step E.now s (Server.serverEndPoint W E op n text q) = (s', .ok (.web ⟨200, none, kv⟩)) := by
  obtain ⟨s', o, a, h1, -, -, -, h2, -⟩ := c66_associate hf hw hz op n text q hq r hd hp s
  obtain ⟨body, kvs, rfl, h3, -⟩ := h2 hk
  have h4 := h1
  rw [Server.serverEndPoint, hd] at h4
  simp only at h4
  obtain ⟨s1, resp, h5, h6⟩ := Server.run_bind_ok _ _ h4
  rw [Server.handleRequest] at h5
  obtain ⟨a', oid', kvs', m1, m2, m3, m4, m5, m6, m7⟩ := c36_allowed W E hf n r s s1 resp hp h5
  rw [Server.display_direct W E s1 resp m7 (argsOf_none (by
      intro v hv
      have hkv : ∀ k x, (k, x) ∈ kvs' → k ≠ t!"mode" := by
        intro k x hx
        cases hs : r.session with
        | plain => rw [hs] at m6; simp only [SecretFor] at m6; subst m6; simp at hx; rw [hx.1]; decide
        | dh b d key =>
          rw [hs] at m6
          obtain ⟨_, _, -, -, rfl⟩ := m6
          simp at hx
          rcases hx with ⟨rfl, -⟩ | ⟨rfl, -⟩ <;> decide
      simp only [List.cons_append, List.nil_append, List.mem_cons, List.mem_append, List.not_mem_nil, or_false,
        Prod.mk.injEq] at hv
      rcases hv with ⟨h, -⟩ | ⟨h, -⟩ | ⟨h, -⟩ | h | ⟨h, -⟩
      · revert h; decide
      · revert h; decide
      · revert h; decide
      · exact hkv _ _ h rfl
      · revert h; decide)) (by simp [m4]) E.now] at h6
  simp only [Prod.mk.injEq] at h6
  obtain ⟨rfl, h6⟩ := h6
  refine ⟨s1, resp, body, h5, ?_, h1⟩
  rw [c52_direct resp (by simp [m4])]
  cases hkf : resp.fields.toKVForm with
  | ok kv => rw [hkf] at h6; simp [Server.pageOf] at h6; subst h6; exact ⟨kv, rfl, rfl⟩
  | error e => rw [hkf] at h6; simp [Server.pageOf] at h6

/-- the key in the request of a relying party is taken -/
theorem request_key {WS : Server.World} {WC : Consumer.World} (hsame : SameCrypto WS WC) {priv : Nat}
    {e : Endpoint} {a t : Str} {sess : Consumer.Session} {m : Msg}
    (hcr : createAssociateRequest WC priv e a t = .ok (sess, m))
    {ES : Server.Env} (hlib : Exchanges WC.lib ES.priv priv) {op : Option Str} {req : Server.AssociateRequest}
    (hdec : Server.decode WS ES op (Percent.parseQsl true m.toURLEncoded) = .ok (some (.associate req))) :
    SessionOk WS.lib req.session := by
  obtain ⟨hst, hask, hkey⟩ := createRequest_ok hcr
  obtain ⟨⟨args, hw, hbody, g1, g2, g3, g4, g5⟩, hk, hkey'⟩ := hask
  rw [hbody, c06_urlencode_round_trip, c34_associate WS ES op args hw] at hdec
  obtain ⟨-, hmsg, hasked, hfit, hmade⟩ := hdec
  rcases hmade with hc | ⟨b', mo, ge, ds, k, hs, hpar, hnew, hcp, -⟩
  · rw [hc]; trivial
  · by_cases hpl : sess = .plain
    · exfalso
      subst hpl
      subst hst
      have : arg args t!"session_type" = none ∨ arg args t!"session_type" = some t!"no-encryption" := by
        split at g3
        · exact .inl g3
        · exact .inr g3
      rw [hs] at hasked
      unfold SessionAsked at hasked
      by_cases hv : IsV1 args
      · rw [if_pos hv] at hasked
        rcases this with h | h <;> rw [h] at hasked <;> cases b' <;> (have := hasked.1; revert this; simp only [Server.Session.sessionType]; decide)
      · rw [if_neg hv] at hasked
        rcases this with h | h <;> rw [h] at hasked <;> cases b' <;> (have := hasked.1; revert this; simp only [Server.Session.sessionType]; decide)
    · obtain ⟨b, d, rfl⟩ : ∃ b d, sess = .dh b d := by
        cases sess with
        | plain => exact absurd rfl hpl
        | dh b d => exact ⟨b, d, rfl⟩
      obtain ⟨args', priv', pub, -, hb, hd, hpub, k1, k2, k3⟩ := hkey b d rfl
      rw [hbody] at hb
      have := same_args hb
      subst this
      have hd' : DiffieHellman.fromDefaults WC.lib priv = .ok d := by
        rw [createAssociateRequest] at hcr
        obtain ⟨s0, c1, hcr⟩ := bind_eq_ok.1 hcr
        obtain ⟨_, -, hcr⟩ := bind_eq_ok.1 hcr
        obtain ⟨_, -, hcr⟩ := bind_eq_ok.1 hcr
        simp at hcr
        obtain ⟨rfl, -⟩ := hcr
        exact session_dh c1
      obtain ⟨rfl, rfl⟩ : mo = defaultModulus ∧ ge = defaultGenerator := by
        rcases hpar with ⟨h, -⟩ | ⟨-, -, -, h1, h2⟩
        · rw [k2] at h; cases h
        · exact ⟨h1, h2⟩
      rw [k1] at hcp
      simp only [Option.some.injEq] at hcp
      subst hcp
      rw [DiffieHellman.fromDefaults, DiffieHellman.new] at hd'
      obtain ⟨P, p1, hd'⟩ := bind_eq_ok.1 hd'
      obtain ⟨G, p2, hd'⟩ := bind_eq_ok.1 hd'
      rw [DiffieHellman.new, p1, p2] at hnew
      simp only [ok_bind] at hnew hd'
      split at hd'
      · split at hnew
        · simp at hd' hnew
          subst hd'; subst hnew
          rw [hs]
          obtain ⟨-, w2, -⟩ := hlib P G p1 p2
          obtain ⟨x, x1, x2⟩ := c04_long (G ^ priv % P)
          rw [DiffieHellman.publicKey, DiffieHellman.publicNumber, x1] at hpub
          cases hpub
          rw [base64ToLong] at x2
          obtain ⟨bs, y1, y2⟩ := bind_eq_ok.1 x2
          cases bs with
          | nil => cases y2
          | cons c bs =>
            refine ⟨c, bs, y1, fun y hy => ?_⟩
            rw [y2] at hy
            cases hy
            rw [hsame.lib]
            exact w2
        · simp at hnew
      · simp at hd'

section
variable {σ τ : Type} {stepC : σ → Event → σ × Outcome} {stepP : τ → Event → τ × Outcome} {viewP : τ → AssocMap}
  {W : Consumer.World} {V : Server.World} {C : Conf} {n : Negotiator} {E0 : Consumer.Env} {E1 : Server.Env}
  {text : Server.Reason → Option Msg → Str} {pages : Except Server.Err Server.Page → Except PyErr Http}
  {elsewhere : Str → Str → Except PyErr Http} {disc : Str → Except PyErr (Str × List Endpoint)}

/-- a relying party makes an association with the provider -/
theorem live_negotiate (hcan : CanAssociate W V C n E0 E1) (hf : Faithful V.clock stepP viewP) (hw : NeverFails stepP)
    (e : Endpoint) (sc : σ) (sp : τ) :
    ∃ sp1 a b, live stepC E0.now (webOf V E1 n text e.serverUrl stepP pages elsewhere) disc
        (negotiateAssociation W C E0 e) sc sp = ((sc, sp1), .ok (some a)) ∧ Makes V E1 b ∧
      viewP sp1 = (fun u k => if u = t!"http://localhost/|normal" ∧ k = b.handle then some b else viewP sp u k) ∧
      SameAssociation a b ∧ a.issued = E0.seconds W ∧ a.lifetime = 1209600 := by
  obtain ⟨at', st', rest, hneg, hperm⟩ := hcan.kind
  have hfit := permits_fits hperm
  have hcr : ∃ x, createAssociateRequest W E0.priv1 e at' st' = .ok x := by
    cases h : createAssociateRequest W E0.priv1 e at' st' with
    | ok x => exact ⟨x, rfl⟩
    | error x =>
      exfalso
      cases createRequest_error h with
      | kind hk =>
        apply hk
        rcases hfit with ⟨rfl, -⟩ | ⟨rfl, -⟩ | ⟨rfl, -⟩ <;> decide
      | library p g h1 h2 h3 => rw [hcan.params p g h1 h2] at h3; cases h3
      | shared p z h1 => exact hcan.sized.shared p z (by rw [hcan.crypto.lib]; exact h1)
  obtain ⟨⟨sess, m⟩, hcr⟩ := hcr
  obtain ⟨hst, hask, -⟩ := createRequest_ok hcr
  obtain ⟨req, d1, d2, d3⟩ := decode_request hcan.crypto hask hfit E1 (some e.serverUrl)
  have hp' : Permits n req.assocType req.session.sessionType := by rw [d2, d3]; exact hperm
  have hk := request_key hcan.crypto hcr hcan.keys d1
  have hq : Dict.WF (Percent.parseQsl true m.toURLEncoded : Dict Str Str) := by
    obtain ⟨⟨args, hwf, hb, -⟩, -, -⟩ := hask
    rw [hb, c06_urlencode_round_trip]; exact hwf
  obtain ⟨sp1, resp, kv, r1, r2, r3⟩ := associate_page (text := text) hf hw hcan.sized hq d1 hp' hk sp
  obtain ⟨-, hread⟩ := reply_read (now := E0.seconds W) hcan.crypto hf hcr hcan.keys hcan.sized.secret d1 hp' r1
  obtain ⟨as, response, x1, x2, x3, x4, x5⟩ := hread _ _ r2
  refine ⟨sp1, ⟨as.handle, as.secret, E0.seconds W, 1209600, at'⟩, as, ?_, x1, x2, ⟨rfl, rfl, x4.symm⟩, rfl, rfl⟩
  rw [negotiateAssociation, show C.negotiator.getAllowedType = some (at', st') by
    rw [Negotiator.getAllowedType, hneg]; rfl]
  simp only
  rw [live_handle]
  have hreq : live stepC E0.now (webOf V E1 n text e.serverUrl stepP pages elsewhere) disc
      (requestAssociation W E0 E0.priv1 e at' st') sc sp =
        ((sc, sp1), .ok (some ⟨as.handle, as.secret, E0.seconds W, 1209600, at'⟩)) := by
    rw [requestAssociation, hcr]
    rw [live_bind (a := (sess, m)) (s' := sc) (t' := sp) rfl]
    simp only
    rw [live_handle]
    have hpost : live stepC E0.now (webOf V E1 n text e.serverUrl stepP pages elsewhere) disc
        (makeKVPost W m e.serverUrl) sc sp = ((sc, sp1), .ok response) := by
      simp only [makeKVPost, live, webOf, if_pos, Dict.ofPairs_eq_self _ hq, r3, asHttp, x3]
    rw [hpost]
    simp only [x5, noAssociation, live]
  rw [hreq]
  simp only [live]

theorem made_handle {b : Assoc} (h : Makes V E1 b) : Plain b.handle ∧ strip b.handle = b.handle ∧
    (b.assocType = t!"HMAC-SHA1" ∨ b.assocType = t!"HMAC-SHA256") := by
  obtain ⟨len, hl, -, -, -, hh⟩ := h
  have ht : b.assocType = t!"HMAC-SHA1" ∨ b.assocType = t!"HMAC-SHA256" := by
    rcases hl with ⟨h, -⟩ | ⟨h, -⟩
    · exact .inl h
    · exact .inr h
  have hc : ∀ c ∈ b.handle, isSpace c = false := by
    rw [hh]; exact Server.handle_noSpace (type_plain ht) _ _
  refine ⟨⟨?_, (Server.clean_of hc).1, ?_, ?_⟩, (Server.clean_of hc).2, ht⟩
  · rw [hh, Server.handleText]; simp
  · rw [hh]
    refine Honest.handle_legible ?_ _ _
    rcases ht with h | h <;> rw [h] <;> decide
  · intro h
    have := hc _ h
    revert this; decide

theorem inStep_fades {url : Str} {held held' issued : AssocMap} {now : Int} (h : InStep url held issued)
    (hf : Fades now held held') : InStep url held' issued := by
  intro k a ha
  rcases hf url k with hk | ⟨hk, -⟩
  · rw [hk] at ha; exact h k a ha
  · rw [hk] at ha; cases ha

theorem inStep_faded {url : Str} {held issued issued' : AssocMap} {now : Int} (h : InStep url held issued)
    (hf : Fades now issued issued') : InStep url held issued' := by
  intro k a ha
  obtain ⟨h1, h2, h3, h4, h5⟩ := h k a ha
  refine ⟨h1, h2, h3, h4, fun b hb => ?_⟩
  rcases hf t!"http://localhost/|normal" k with hk | ⟨hk, -⟩
  · rw [hk] at hb; exact h5 b hb
  · rw [hk] at hb; cases hb

variable {viewC : σ → AssocMap} {used : σ → Str → Int → Str → Prop} {ranked : σ → Str → Prop}

/-- the association a relying party goes on with -/
theorem live_association (hcan : C.hasStore = true → CanAssociate W V C n E0 E1) (hc : Keeps W.clock stepC viewC used ranked)
    (hcn : NeverFails stepC) (hf : Faithful V.clock stepP viewP) (hw : NeverFails stepP)
    (e : Endpoint) (sc : σ) (sp : τ) (hin : InStep e.serverUrl (viewC sc) (viewP sp)) (hrank : ranked sc e.serverUrl) :
    ∃ sc1 sp1 oa, live stepC E0.now (webOf V E1 n text e.serverUrl stepP pages elsewhere) disc
        (associationFor W C E0 e) sc sp = ((sc1, sp1), .ok oa) ∧ InStep e.serverUrl (viewC sc1) (viewP sp1) ∧
      ranked sc1 e.serverUrl ∧
      (∀ a, oa = some a → C.hasStore = true ∧ viewC sc1 e.serverUrl a.handle = some a ∧ ¬ expired (E0.seconds W) a) ∧
      (∀ u t x, used sc1 u t x → used sc u t x) ∧
      Changes (E0.seconds W) (fun u h => u = e.serverUrl ∧ ∃ b, Makes V E1 b ∧ h = b.handle)
        (fun u h a => u = e.serverUrl ∧ h = a.handle ∧ oa = some a ∧ a.issued = E0.seconds W ∧ a.lifetime = 1209600 ∧
          ∃ b, Makes V E1 b ∧ SameAssociation a b ∧ viewP sp1 t!"http://localhost/|normal" h = some b) (viewC sc) (viewC sc1) ∧
      Changes (E1.seconds V) (fun u h => ∃ b, MadeBy V E1 t!"http://localhost/|normal" u h b)
        (MadeBy V E1 t!"http://localhost/|normal") (viewP sp) (viewP sp1) := by
  by_cases hs : C.hasStore = true
  · obtain ⟨hfade, r, hr, hlate⟩ := hc.latest sc E0.now e.serverUrl hrank
    have hused : ∀ u t x, used (stepC sc (E0.now, .getAssociation e.serverUrl none)).1 u t x → used sc u t x := by
      intro u t x h
      rcases hc.others _ _ _ _ _ h with h | h
      · exact h
      · cases h
    rw [associationFor, if_pos hs, Consumer.getAssociation]
    have hfetch : live stepC E0.now (webOf V E1 n text e.serverUrl stepP pages elsewhere) disc
        (fetchAssoc e.serverUrl none) sc sp =
          (((stepC sc (E0.now, .getAssociation e.serverUrl none)).1, sp), .ok r) := by
      simp only [fetchAssoc, live, hr]; rfl
    rw [live_bind hfetch]
    have hstay := hc.stays sc (E0.now, .getAssociation e.serverUrl none) e.serverUrl (fun _ h => by cases h) hrank
    have honly := fun a => hc.only sc E0.now e.serverUrl r a hr
    generalize (stepC sc (E0.now, .getAssociation e.serverUrl none)).1 = sc1 at hfade hused hstay honly
    have hin1 := inStep_fades hin hfade
    by_cases hu : usable W E0 r = true
    · rw [if_pos hu]
      refine ⟨sc1, sp, r, rfl, hin1, hstay, fun a ha => ?_, hused, hfade.changes _ _, .rfl' _ _ _ _⟩
      subst ha
      obtain ⟨h, hv⟩ := hlate a rfl
      have hx : ¬ expired (E0.seconds W) a := by
        intro hx
        have := (MemStore.getExpiresIn_zero a (E0.seconds W)).2 hx
        simp only [beq_iff_eq] at this
        simp [usable, this] at hu
      obtain ⟨rfl, -⟩ := hin h a hv
      refine ⟨hs, ?_, hx⟩
      rcases hfade e.serverUrl a.handle with k | ⟨-, b, k, kx⟩
      · rw [k, hv]
      · rw [hv] at k; cases k; exact absurd kx hx
    · rw [if_neg hu]
      obtain ⟨sp1, a, b, hneg, hm, hvp, hsame, hi, hl⟩ := live_negotiate (stepC := stepC) (text := text) (pages := pages)
        (elsewhere := elsewhere) (disc := disc) (hcan hs) hf hw e sc1 sp
      obtain ⟨p1, p2, p3⟩ := made_handle hm
      have htype : Usual (.storeAssociation e.serverUrl a) := by rw [Usual, hsame.type]; exact p3
      rw [negotiateAndStore, live_bind hneg]
      have hput : live stepC E0.now (webOf V E1 n text e.serverUrl stepP pages elsewhere) disc
          (putAssoc e.serverUrl a) sc1 sp1 =
            (((stepC sc1 (E0.now, .storeAssociation e.serverUrl a)).1, sp1), .ok ()) := by
        obtain ⟨x, hx⟩ := hcn sc1 E0.now (.storeAssociation e.serverUrl a) htype
        simp only [putAssoc, live, hx]; rfl
      simp only
      rw [live_bind hput]
      have hview : viewC (stepC sc1 (E0.now, .storeAssociation e.serverUrl a)).1 =
          fun u h => if u = e.serverUrl ∧ h = a.handle then some a else viewC sc1 u h := by
        rcases hc.holds.put sc1 E0.now e.serverUrl a with ⟨x, -, h⟩ | ⟨x, h, -⟩
        · exact h
        · obtain ⟨y, hy⟩ := hcn sc1 E0.now (.storeAssociation e.serverUrl a) htype
          rw [hy] at h; cases h
      refine ⟨_, sp1, some a, rfl, ?_, honly a (fun b hb => ?_) htype, ?_, ?_, (hfade.changes _ _).trans ?_, ?_⟩
      · intro h x hx
        rw [hview] at hx
        simp only [true_and] at hx
        split at hx
        · next hh =>
          cases hx
          subst hh
          rw [hsame.handle, hsame.type]
          refine ⟨rfl, p1, p2, p3, fun b' hb' => ?_⟩
          rw [hvp] at hb'
          simp only [and_self, if_true, Option.some.injEq] at hb'
          subst hb'; exact hsame
        · next hh =>
          obtain ⟨q1, q2, q3, q4, q5⟩ := hin1 h x hx
          refine ⟨q1, q2, q3, q4, fun b' hb' => ?_⟩
          rw [hvp] at hb'
          simp only [true_and] at hb'
          rw [if_neg (by rw [← hsame.handle]; exact hh)] at hb'
          exact q5 b' hb'
      · subst hb
        apply Classical.byContradiction
        intro hx
        apply hu
        have hz : ¬ b.issued + b.lifetime ≤ E0.seconds W := hx
        refine decide_eq_true ?_
        rw [Assoc.getExpiresIn]
        omega
      · intro a' ha'
        cases ha'
        refine ⟨hs, by rw [hview]; simp, ?_⟩
        rw [expired, hi, hl]; omega
      · intro u t x h
        rcases hc.others _ _ _ _ _ h with h | h
        · exact hused _ _ _ h
        · cases h
      · refine ⟨fun u h x hx => ?_, fun u h x hx => ?_⟩
        · rw [hview]
          simp only
          split
          · next hh => exact .inr (.inr ⟨hh.1, b, hm, by rw [hh.2, hsame.handle]⟩)
          · exact .inl hx
        · rw [hview] at hx
          simp only at hx
          split at hx
          · next hh =>
            cases hx
            refine .inr ⟨hh.1, hh.2, rfl, hi, hl, b, hm, hsame, ?_⟩
            rw [hvp, hh.2, hsame.handle]
            simp
          · exact .inl hx
      · refine ⟨fun u h x hx => ?_, fun u h x hx => ?_⟩
        · rw [hvp]
          simp only
          split
          · next hh => exact .inr (.inr ⟨b, hh.1, hm, hh.2⟩)
          · exact .inl hx
        · rw [hvp] at hx
          simp only at hx
          split at hx
          · next hh => cases hx; exact .inr ⟨hh.1, hm, hh.2⟩
          · exact .inl hx
  · rw [associationFor, if_neg hs]
    exact ⟨sc, sp, none, rfl, hin, hrank, (fun a h => by cases h), (fun _ _ _ h => h), .rfl' _ _ _ _, .rfl' _ _ _ _⟩

/-- the beginning of a login -/
theorem live_begin (hcan : C.hasStore = true → CanAssociate W V C n E0 E1) (hc : Keeps W.clock stepC viewC used ranked)
    (hcn : NeverFails stepC) (hf : Faithful V.clock stepP viewP) (hw : NeverFails stepP)
    {e : Endpoint} {typed name : Str} {more : List Endpoint} (hd : disc typed = .ok (name, e :: more)) {anonymous : Bool}
    (ha : anonymous = true → versionOf e = t!"http://specs.openid.net/auth/2.0") (token : Option Endpoint)
    (sc : σ) (sp : τ) (hin : InStep e.serverUrl (viewC sc) (viewP sp)) (hrank : ranked sc e.serverUrl) :
    ∃ sc1 sp1 s1 req, live stepC E0.now (webOf V E1 n text e.serverUrl stepP pages elsewhere) disc
        (begin W C E0 ⟨token, none⟩ typed anonymous) sc sp = ((sc1, sp1), .ok (s1, .ok req)) ∧
      InStep e.serverUrl (viewC sc1) (viewP sp1) ∧ ranked sc1 e.serverUrl ∧
      (∀ a, req.assoc = some a → C.hasStore = true ∧ viewC sc1 e.serverUrl a.handle = some a ∧ ¬ expired (E0.seconds W) a) ∧
      (∀ u t x, used sc1 u t x → used sc u t x) ∧
      Changes (E0.seconds W) (fun u h => u = e.serverUrl ∧ ∃ b, Makes V E1 b ∧ h = b.handle)
        (fun u h a => u = e.serverUrl ∧ h = a.handle ∧ req.assoc = some a ∧ a.issued = E0.seconds W ∧ a.lifetime = 1209600 ∧
          ∃ b, Makes V E1 b ∧ SameAssociation a b ∧ viewP sp1 t!"http://localhost/|normal" h = some b) (viewC sc) (viewC sc1) ∧
      Changes (E1.seconds V) (fun u h => ∃ b, MadeBy V E1 t!"http://localhost/|normal" u h b)
        (MadeBy V E1 t!"http://localhost/|normal") (viewP sp) (viewP sp1) ∧
      ∃ s0 evs, Runs (beginWithoutDiscovery W C E0 s0 e anonymous) evs (.ok (s1, .ok req)) := by
  obtain ⟨sc1, sp1, oa, h1, h2, hr2, h3, h4, h5, h6⟩ := live_association (text := text) (pages := pages) (elsewhere := elsewhere)
    (disc := disc) hcan hc hcn hf hw e sc sp hin hrank
  obtain ⟨m, hm, hm1⟩ := newRequest_ok e oa
  have hgen : live stepC E0.now (webOf V E1 n text e.serverUrl stepP pages elsewhere) disc
      (genericBegin W C E0 e) sc sp = ((sc1, sp1), .ok ((⟨e, oa, [], m, false⟩ : AuthRequest).addReturnToArgs W E0)) := by
    rw [genericBegin, live_bind h1, hm]
    rfl
  have hanon : anonymousOr ((⟨e, oa, [], m, false⟩ : AuthRequest).addReturnToArgs W E0) anonymous =
      .ok { (⟨e, oa, [], m, false⟩ : AuthRequest).addReturnToArgs W E0 with anonymous := anonymous } := by
    rw [anonymousOr, AuthRequest.setAnonymous]
    have : (anonymous && ((⟨e, oa, [], m, false⟩ : AuthRequest).addReturnToArgs W E0).message.isOpenID1) = false := by
      show (anonymous && m.isOpenID1) = false
      cases anonymous with
      | false => rfl
      | true =>
        cases hv : m.isOpenID1 with
        | false => rfl
        | true =>
          obtain ⟨g1, g2⟩ := hm1 hv
          have := ha rfl
          rw [versionOf, if_neg (by rintro (h | h); exact g1 h; exact g2 h)] at this
          revert this; decide
    rw [this]; rfl
  have hbw : ∀ s0 : UserSession, live stepC E0.now (webOf V E1 n text e.serverUrl stepP pages elsewhere) disc
      (beginWithoutDiscovery W C E0 s0 e anonymous) sc sp = ((sc1, sp1), .ok ({ s0 with token := some e },
        .ok { (⟨e, oa, [], m, false⟩ : AuthRequest).addReturnToArgs W E0 with anonymous := anonymous })) := by
    intro s0
    rw [beginWithoutDiscovery, live_handle, hgen]
    simp only [hanon]
    rfl
  have hnext : live stepC E0.now (webOf V E1 n text e.serverUrl stepP pages elsewhere) disc
      (Consumer.getNextService ⟨token, none⟩ typed) sc sp =
        ((sc, sp), .ok (⟨token, some ⟨typed, name, more, some e⟩⟩, .ok (some e))) := by
    simp only [Consumer.getNextService, Manager.beforeDiscovery, Manager.getManager]
    rw [live_handle]
    have : live stepC E0.now (webOf V E1 n text e.serverUrl stepP pages elsewhere) disc (runDiscover typed) sc sp =
        ((sc, sp), .ok (name, e :: more)) := by
      simp only [runDiscover, live, hd]; rfl
    rw [this]
    rfl
  refine ⟨sc1, sp1, ⟨some e, some ⟨typed, name, more, some e⟩⟩,
    { (⟨e, oa, [], m, false⟩ : AuthRequest).addReturnToArgs W E0 with anonymous := anonymous }, ?_, h2, hr2, h3, h4, h5, h6,
    ⟨token, some ⟨typed, name, more, some e⟩⟩, ?_⟩
  · rw [begin, live_bind hnext]
    exact hbw _
  · obtain ⟨evs, hevs⟩ := live_runs (step := stepC) (now := E0.now)
      (serve := webOf V E1 n text e.serverUrl stepP pages elsewhere) (disc := disc)
      (beginWithoutDiscovery W C E0 ⟨token, some ⟨typed, name, more, some e⟩⟩ e anonymous) sc sp
    rw [hbw] at hevs
    exact ⟨evs, hevs⟩

end

theorem InStep.sub {url : Str} {held held' issued issued' : AssocMap} (h : InStep url held issued)
    (h1 : Server.Sub held' held) (h2 : ∀ k b, issued' t!"http://localhost/|normal" k = some b →
      issued t!"http://localhost/|normal" k = some b) : InStep url held' issued' := by
  intro k a ha
  obtain ⟨g1, g2, g3, g4, g5⟩ := h k a (h1 _ _ _ ha)
  exact ⟨g1, g2, g3, g4, fun b hb => g5 b (h2 _ _ hb)⟩

/-- a program of the provider that stores no shared association -/
def Quiet {α : Type} : Server.Prog α → Prop
  | .done _ => True
  | .call op k => (match op with
      | .storeAssociation u _ => u ≠ t!"http://localhost/|normal"
      | .getAssociation _ h => h ≠ none
      | .removeAssociation _ _ => True
      | _ => False) ∧ ∀ o, Quiet (k o)

theorem Quiet.bind {α β : Type} {p : Server.Prog α} {f : α → Server.Prog β} (hp : Quiet p) (hf : ∀ a, Quiet (f a)) :
    Quiet (p >>= f) := by
  rw [Server.bind_def]
  induction p with
  | done r => cases r with
    | ok a => exact hf a
    | error e => trivial
  | call op k ih => exact ⟨hp.1, fun o => ih o (hp.2 o)⟩

theorem Quiet.run {σ α : Type} {c : Clock} {step : σ → Event → σ × Outcome} {view : σ → AssocMap} (hf : Faithful c step view)
    {now : Nat} {p : Server.Prog α} (hp : Quiet p) (s : σ) (k : Str) (b : Assoc)
    (h : view (Server.Prog.run step now s p).1 t!"http://localhost/|normal" k = some b) :
    view s t!"http://localhost/|normal" k = some b := by
  induction p generalizing s with
  | done r => exact h
  | call op g ih =>
    have key : view (step s (now, op)).1 t!"http://localhost/|normal" k = some b →
        view s t!"http://localhost/|normal" k = some b := by
      intro hv
      have hop := hp.1
      cases op with
      | storeAssociation u a =>
        simp only at hop
        rcases hf.put s now u a with ⟨_, -, hs⟩ | ⟨_, -, hs⟩
        · rw [hs] at hv; simp only at hv; rwa [if_neg (fun hh => hop hh.1.symm)] at hv
        · rwa [hs] at hv
      | getAssociation u x =>
        cases x with
        | none => exact absurd rfl hop
        | some x => exact (hf.get s now u x).1.sub _ _ _ hv
      | removeAssociation u x =>
        rcases hf.remove s now u x with ⟨_, -, hs⟩ | ⟨_, -, hs⟩
        · rw [hs] at hv; simp only at hv
          split at hv
          · cases hv
          · exact hv
        · rwa [hs] at hv
      | _ => exact hop.elim
    simp only [Server.Prog.run] at h
    cases hs : step s (now, op) with
    | mk s' o =>
      rw [hs] at h key
      cases o with
      | error e => exact key h
      | ok a => exact key (ih a (hp.2 a) s' h)

theorem quiet_done {α : Type} (r : Except Server.Err α) : Quiet (Server.Prog.done r) := trivial

theorem quiet_create (V : Server.World) (E : Server.Env) (t : Str) : Quiet (Server.createAssociation V E true t) := by
  rw [Server.createAssociation]
  cases Server.newAssociation V E t with
  | error e => trivial
  | ok a => exact ⟨by simp only [Server.storeKey, Server.dumbKey]; decide, fun _ => trivial⟩

theorem quiet_get (V : Server.World) (E : Server.Env) (h : Str) (d c : Bool) : Quiet (Server.getAssociation V E h d c) := by
  rw [Server.getAssociation]
  refine Quiet.bind ⟨by simp, fun o => ?_⟩ fun a => ?_
  · cases o <;> trivial
  · cases a with
    | none => trivial
    | some a =>
      rw [Server.keepOrDrop]
      split
      · split
        · exact ⟨trivial, fun _ => trivial⟩
        · trivial
      · trivial

theorem quiet_sign (V : Server.World) (E : Server.Env) (r : Server.Response) : Quiet (Server.sign V E r) := by
  unfold Server.sign
  split
  · trivial
  · exact (quiet_create V E _).bind fun _ => trivial
  · exact (quiet_create V E _).bind fun _ => trivial
  · refine (quiet_get V E _ _ _).bind fun a => ?_
    have hfb : ∀ h o, Quiet (Server.fallBack V E r h o) := by
      intro h o
      rw [Server.fallBack]
      refine (quiet_done _).bind fun _ => ?_
      cases o with
      | none => exact (quiet_create V E _).bind fun _ => trivial
      | some o => exact Quiet.bind ⟨trivial, fun _ => trivial⟩ fun _ => (quiet_create V E _).bind fun _ => trivial
    cases a with
    | none => rw [Server.signFound]; exact hfb _ _
    | some a =>
      rw [Server.signFound]
      split
      · exact hfb _ _
      · trivial

theorem quiet_encode (V : Server.World) (E : Server.Env) (r : Server.Response) : Quiet (Server.signingEncode V E r) := by
  unfold Server.signingEncode
  split
  · trivial
  · trivial
  · split
    · trivial
    · trivial
    · exact (quiet_sign V E r).bind fun _ => trivial

theorem quiet_answer (V : Server.World) (E : Server.Env) (r : Server.CheckAuthRequest) : Quiet (r.answer V E) := by
  rw [Server.CheckAuthRequest.answer]
  refine Quiet.bind (Quiet.bind (quiet_get V E _ _ _) fun a => ?_) fun _ => ?_
  · unfold Server.checkWith
    split
    · trivial
    · split
      · trivial
      · split <;> trivial
  · refine Quiet.bind ⟨trivial, fun _ => trivial⟩ fun _ => (quiet_done _).bind fun _ => (quiet_done _).bind fun _ => ?_
    unfold Server.CheckAuthRequest.reportHandle
    split
    · refine (quiet_get V E _ _ _).bind fun a => ?_
      cases a <;> trivial
    · trivial

/-- the page about a signature -/
theorem checkauth_page {σ : Type} {W : Server.World} {E : Server.Env} {step : σ → Event → σ × Outcome} {view : σ → AssocMap}
    (hf : Faithful W.clock step view) (hw : NeverFails step) {op : Option Str} {n : Negotiator}
    {text : Server.Reason → Option Msg → Str} {q : Dict Str Str} (hq : Dict.WF q) {r : Server.CheckAuthRequest}
    (hd : Server.decode W E op q = .ok (some (.checkAuth r))) {s s' : σ} {resp : Server.Response} {kv : Str}
    (hrun : Server.Prog.run step E.now s (r.answer W E) = (s', .ok resp))
    (henc : Server.encode resp = .ok ⟨200, none, kv⟩) :
    Server.Prog.run step E.now s (Server.serverEndPoint W E op n text q) = (s', .ok (.web ⟨200, none, kv⟩)) := by
  obtain ⟨h1, h2, h3, h4, h5, h6⟩ := (c34_checkauth W E op q hq r).1 hd
  have hP := Server.parsed hq h5
  obtain ⟨oid, ho⟩ := hP.ns
  have hoid := hP.inv.oid _ ho
  have hs : r.signed.getOpenIDNamespace = some oid := by
    obtain ⟨oid', ho', hn, -⟩ := setArg_openid _ hP.inv _ _ _ h6
    rw [ho] at ho'; cases ho'
    rw [← ho]; simp [Msg.getOpenIDNamespace, hn]
  obtain ⟨s'', f, valid, inv, k1, k2, -, -⟩ := Server.answers (E := E) hf hw s r hs ho hoid
  have hc := Server.carries_of k2
  rw [k1] at hrun
  cases hrun
  have he : f.toKVForm = .ok kv := by
    have : Server.encode ⟨.checkAuth r, f⟩ = (Server.lift f.toKVForm).map fun kv => ⟨200, none, kv⟩ := by
      unfold Server.encode Server.Response.whichEncoding
      rw [if_neg (by rw [show Server.browserModes.contains (Server.Request.checkAuth r).mode = false from rfl]; decide)]
      simp only [ok_bind]
      cases f.toKVForm <;> rfl
    rw [this] at henc
    cases hk : f.toKVForm with
    | error x => rw [hk] at henc; cases henc
    | ok x => rw [hk] at henc; cases henc; rfl
  rw [Server.serverEndPoint, hd]
  simp only
  rw [Server.run_bind, Server.handleRequest, k1]
  simp only
  rw [Server.display_direct W E _ ⟨.checkAuth r, f⟩ hc rfl (by simp) E.now, he]
  rfl

end Props
