import Verif.Props.Login
import Verif.Props.LoginSelect
import Verif.Props.Refusal
import Verif.Spec.Logins
/-! # The invariant of any number of logins -/

namespace Props
open Py Message Association Cryptutil Store Discover Consumer Spec DH Extend

variable {σ τ ι : Type} [DecidableEq ι] (K : Venue σ τ) (L : ι → Attempt)

/-- what is left of a login when the answer is on its way -/
def LoginReturns (a : Attempt) (req : AuthRequest) (s1 : UserSession) (sp3 : τ) (w : Server.WebResponse) : Prop :=
  ∀ q', Brings w q' → ∀ (sc2 : σ) (sp4 : τ),
    InStep K.url (K.viewC sc2) (K.viewP sp4) →
    Undisturbed K.W K.V K.url req.assoc a.Es a.E3 a.E2 (K.viewC sc2) (K.viewP sp3) (K.viewP sp4) →
    Unused K.W K.V K.used a.e a.E0 a.Es a.E2 sc2 →
  ∃ sc3 sp5 r,
    live K.stepC a.E2.now (webOf K.V a.E3 K.n K.text K.url K.stepP K.pages K.elsewhere) a.disc'
      (complete K.W K.C a.E2 s1 q' a.current) sc2 sp4 = ((sc3, sp5), r) ∧ EndsWell K.W a r ∧
    InStep K.url (K.viewC sc3) (K.viewP sp5) ∧ (K.ranked sc2 K.url → K.ranked sc3 K.url) ∧
    Changes (a.E2.seconds K.W) (fun u h => u = K.url ∧ ∃ x, req.assoc = some x ∧ h = x.handle ∧
      ∀ b, K.viewP sp3 t!"http://localhost/|normal" h = some b → expired (a.Es.seconds K.V) b) (fun _ _ _ => False)
      (K.viewC sc2) (K.viewC sc3) ∧
    Changes (a.E3.seconds K.V) (fun u h => ∃ b, MadeBy K.V a.Es t!"http://localhost/|dumb" u h b) (fun _ _ _ => False)
      (K.viewP sp4) (K.viewP sp5) ∧
    ∀ u t x, K.used sc3 u t x → K.used sc2 u t x ∨ IsNonce K.W K.V a.e a.E0 a.Es u t x

/-- what is left of a login when the request is made -/
def LoginGoesOut (a : Attempt) (sc1 : σ) (req : AuthRequest) (s1 : UserSession) (url : Str) : Prop :=
  ∀ (sp2 : τ), InStep K.url (K.viewC sc1) (K.viewP sp2) → ∀ q, Dict.WF q → (∀ k, q.get? k = (parameters url).get? k) →
  ∃ r resp resp' w sp3,
    Server.Prog.run K.stepP a.Es.now sp2 (Server.serverEndPoint K.V a.Es (some K.url) K.n K.text q) = (sp2, .ok (.ask r)) ∧
    Gives (versionOf a.e) a.asks (fun u d => r.message.getArgs (.uri u) = .ok d) ∧
    a.says.answer K.V a.Es r = .ok resp ∧ extendResponse resp a.tells = .ok resp' ∧
    Server.Prog.run K.stepP a.Es.now sp2 (Server.signingEncode K.V a.Es resp') = (sp3, .ok w) ∧
    InStep K.url (K.viewC sc1) (K.viewP sp3) ∧
    Changes (a.Es.seconds K.V) (fun u h => ∃ b, MadeBy K.V a.Es t!"http://localhost/|dumb" u h b)
      (MadeBy K.V a.Es t!"http://localhost/|dumb") (K.viewP sp2) (K.viewP sp3) ∧ (∃ q', Brings w q') ∧
    LoginReturns K a req s1 sp3 w

/-- how a login stands -/
def LoginStands (S : Scene σ τ ι) (a : Attempt) : Phase → Prop
  | .waiting => True
  | .away s url => ∃ sc1 req, (∀ h x, K.viewC sc1 K.url h = some x → K.viewC S.rp K.url h = some x) ∧
      (∀ x, req.assoc = some x → K.viewC sc1 K.url x.handle = some x) ∧ LoginGoesOut K a sc1 req s url
  | .back s r w => Gives (versionOf a.e) a.asks (fun u d => r.message.getArgs (.uri u) = .ok d) ∧ (∃ q', Brings w q') ∧
      ∃ req sp3, (∀ x, req.assoc = some x → K.viewC S.rp K.url x.handle = some x ∧
          ∃ b, K.viewP sp3 t!"http://localhost/|normal" x.handle = some b ∧
            K.viewP S.op t!"http://localhost/|normal" x.handle = some b) ∧
        (∀ h b, Makes K.V a.Es b → K.viewP sp3 t!"http://localhost/|dumb" h = some b →
          K.viewP S.op t!"http://localhost/|dumb" h = some b) ∧
        LoginReturns K a req s sp3 w
  | .over r => EndsWell K.W a r
  | .failed => False

structure Standing (untilC untilP : Int) (S : Scene σ τ ι) : Prop where
  step : InStep K.url (K.viewC S.rp) (K.viewP S.op)
  rank : K.ranked S.rp K.url
  handles : ∀ u h b, K.viewP S.op u h = some b → b.handle = h
  held : ∀ h a, K.viewC S.rp K.url h = some a → untilC ≤ a.issued + a.lifetime ∧
    (∃ b, K.viewP S.op t!"http://localhost/|normal" h = some b ∧ untilP ≤ b.issued + b.lifetime) ∧
    (∀ i b, Makes K.V (L i).E1 b → h = b.handle → S.phase i ≠ .waiting) ∧
    ∀ i b, Makes K.V (L i).Es b → h ≠ b.handle
  nonces : ∀ i, (∀ r, S.phase i ≠ .over r) → ∀ u t x, IsNonce K.W K.V (L i).e (L i).E0 (L i).Es u t x → ¬ K.used S.rp u t x
  stands : ∀ i, LoginStands K S (L i) (S.phase i)

variable {K L} {untilC untilP : Int}

theorem ready_standing {S : Scene σ τ ι} (h : Ready K L untilC untilP S) : Standing K L untilC untilP S where
  step := h.step
  rank := h.rank
  handles := h.handles
  held k a ha := by
    obtain ⟨h1, h2, h3⟩ := h.held k a ha
    exact ⟨h1, h2, fun i b hb hh => absurd hh (h3 i b (.inl hb)), fun i b hb => h3 i b (.inr hb)⟩
  nonces i _ := h.nonces i
  stands i := by rw [h.waiting i]; trivial

/-- a login stands as before, if what it needs is still there -/
theorem LoginStands.persist {S S' : Scene σ τ ι} {a : Attempt} {p : Phase} (hs : LoginStands K S a p)
    (hown : ∀ u h b, K.viewP S.op u h = some b → b.handle = h)
    (h1 : ∀ h x, K.viewC S.rp K.url h = some x → K.viewC S'.rp K.url h = some x)
    (h2 : ∀ h x, K.viewC S.rp K.url h = some x → ∀ b, K.viewP S.op t!"http://localhost/|normal" h = some b →
      K.viewP S'.op t!"http://localhost/|normal" h = some b)
    (h3 : ∀ b, Makes K.V a.Es b → K.viewP S.op t!"http://localhost/|dumb" b.handle = some b →
      K.viewP S'.op t!"http://localhost/|dumb" b.handle = some b) : LoginStands K S' a p := by
  cases p with
  | waiting => trivial
  | away s url =>
    obtain ⟨sc1, req, g1, g2, g3⟩ := hs
    exact ⟨sc1, req, fun h x hx => h1 h x (g1 h x hx), g2, g3⟩
  | back s r w =>
    obtain ⟨g0, g1, req, sp3, g2, g3, g4⟩ := hs
    refine ⟨g0, g1, req, sp3, fun x hx => ?_, fun h b hb hv => ?_, g4⟩
    · obtain ⟨k1, b, k2, k3⟩ := g2 x hx
      exact ⟨h1 _ _ k1, b, k2, h2 _ _ k1 b k3⟩
    · have := g3 h b hb hv
      have hh := hown _ _ _ this
      subst hh
      exact h3 b hb this
  | over r => exact hs
  | failed => exact hs

theorem lasts {a : Assoc} {t u : Int} (h : u ≤ a.issued + a.lifetime) (ht : t < u) : ¬ expired t a := by
  rw [expired]; omega

theorem unused_of {a : Attempt} {s : σ}
    (h1 : ∀ u t x, IsNonce K.W K.V a.e a.E0 a.Es u t x → K.W.clock.within 18000 a.E2.now t)
    (h2 : ∀ u t x, IsNonce K.W K.V a.e a.E0 a.Es u t x → ¬ K.used s u t x) :
    Unused K.W K.V K.used a.e a.E0 a.Es a.E2 s := by
  unfold IsNonce at h1 h2
  unfold Unused
  split
  · next hv =>
    simp only [if_pos hv] at h1 h2
    exact ⟨h1 _ _ _ ⟨rfl, rfl, rfl⟩, h2 _ _ _ ⟨rfl, rfl, rfl⟩⟩
  · next hv =>
    simp only [if_neg hv] at h1 h2
    exact ⟨h1 _ _ _ ⟨rfl, rfl, rfl⟩, h2 _ _ _ ⟨rfl, rfl, rfl⟩⟩

/-- The first step, from C76. -/
theorem begins (hK : WorkTogether K) {a : Attempt} (ha : Proceeds K untilC untilP a) (sc : σ) (sp : τ)
    (hin : InStep K.url (K.viewC sc) (K.viewP sp)) (hrank : K.ranked sc K.url) :
    ∃ sc1 sp1 s1 req req' url,
      live K.stepC a.E0.now (webOf K.V a.E1 K.n K.text K.url K.stepP K.pages K.elsewhere) a.disc
        (begin K.W K.C a.E0 ⟨a.token, none⟩ a.typed a.anonymous) sc sp = ((sc1, sp1), .ok (s1, .ok req)) ∧
      extendRequest req a.asks = .ok req' ∧ req'.redirectURL a.realm (some a.returnTo) a.immediate = .ok url ∧
      InStep K.url (K.viewC sc1) (K.viewP sp1) ∧ K.ranked sc1 K.url ∧
      (∀ x, req.assoc = some x → K.viewC sc1 K.url x.handle = some x) ∧
      Changes (a.E0.seconds K.W) (fun u h => u = K.url ∧ ∃ b, Makes K.V a.E1 b ∧ h = b.handle)
        (fun u h x => u = K.url ∧ h = x.handle ∧ x.issued = a.E0.seconds K.W ∧ x.lifetime = 1209600 ∧
          ∃ b, Makes K.V a.E1 b ∧ SameAssociation x b ∧ K.viewP sp1 t!"http://localhost/|normal" h = some b)
        (K.viewC sc) (K.viewC sc1) ∧
      Changes (a.E1.seconds K.V) (fun u h => ∃ b, MadeBy K.V a.E1 t!"http://localhost/|normal" u h b)
        (MadeBy K.V a.E1 t!"http://localhost/|normal") (K.viewP sp) (K.viewP sp1) ∧
      (∀ u t x, K.used sc1 u t x → K.used sc u t x) ∧ LoginGoesOut K a sc1 req s1 url := by
  have hu := ha.here
  cases hsay : a.says with
  | yes =>
    have he : Askable a.e := by have := ha.asked; rw [hsay] at this; exact this
    obtain ⟨sc1, sp1, s1, req, b1, b2, b3, b4, b5, b6, b7, h⟩ := c76_login (text := K.text) (pages := K.pages)
      (elsewhere := K.elsewhere) hK.uni hK.mac hK.signs hK.reg hK.regV ha.can hK.storeC hK.worksC hK.storeP hK.worksP ha.found
      he ha.anonymous ha.calendar.1 a.token sc sp (by rw [hu]; exact hin) (by rw [hu]; exact hrank)
    obtain ⟨req', url, c1, c2, h⟩ := h a.asks ha.asks a.realm a.returnTo a.current ha.returns a.immediate
    rw [hu] at b1 b2 b3 b4 b5 h
    refine ⟨sc1, sp1, s1, req, req', url, b1, c1, c2, b2, b3, fun x hx => (b4 x hx).1, ?_, b6, b7, ?_⟩
    · exact b5.mono (fun _ _ h => h) fun u h x hx => ⟨hx.1, hx.2.1, hx.2.2.2⟩
    · intro sp2 i1 q i2 i3
      obtain ⟨r, resp, d1, -, d2, d3, h⟩ := h a.Es sp2 i1 ha.salt ha.calendar.2 q i2 i3
      obtain ⟨resp', w, sp3, d4, d5, d6, d7, d8, h⟩ := h a.tells ha.tells.1 ha.tells.2.1 ha.tells.2.2
      refine ⟨r, resp, resp', w, sp3, d1, d2, by rw [hsay]; exact d3, d4, d5, d6, d7, d8, ?_⟩
      intro q' hq' sc2 sp4 i4 i5 i6
      obtain ⟨sc3, sp5, s2, m, signed, e1, -, e2, e3, e4, e5, e6, e7, e8⟩ := h q' hq' a.E2 a.E3 sc2 sp4 a.disc' i4 i5 i6
      exact ⟨sc3, sp5, _, e1, by rw [EndsWell, hsay]; exact ⟨s2, m, signed, rfl, e2, e8⟩, e3, e4, e5, e6, e7⟩
  | chooses identity claimed =>
    have hx := ha.asked
    rw [hsay] at hx
    obtain ⟨he, hanon, hp1, hp2, name, found, d, hf1, hf2, hf3, hf4⟩ := hx
    obtain ⟨sc1, sp1, s1, req, b1, b2, b3, b4, b5, b6, b7, h⟩ := c77_login (text := K.text) (pages := K.pages)
      (elsewhere := K.elsewhere) hK.uni hK.mac hK.signs hK.reg hK.regV ha.can hK.storeC hK.worksC hK.storeP hK.worksP ha.found
      he ha.calendar.1 a.token sc sp (by rw [hu]; exact hin) (by rw [hu]; exact hrank)
    obtain ⟨req', url, c1, c2, h⟩ := h a.asks ha.asks a.realm a.returnTo a.current ha.returns a.immediate
    rw [hu] at b1 b2 b3 b4 b5 h
    rw [hanon]
    refine ⟨sc1, sp1, s1, req, req', url, b1, c1, c2, b2, b3, fun x hx => (b4 x hx).1, ?_, b6, b7, ?_⟩
    · exact b5.mono (fun _ _ h => h) fun u h x hx => ⟨hx.1, hx.2.1, hx.2.2.2⟩
    · intro sp2 i1 q i2 i3
      obtain ⟨r, d1, -, d2, h⟩ := h a.Es sp2 i1 ha.salt ha.calendar.2 q i2 i3
      obtain ⟨resp, d3, h⟩ := h identity (chosen identity claimed) claimed hp1 hp2 (by
        rcases claimed with _ | _ | ⟨x, y⟩
        · exact .inr ⟨rfl, .inl rfl⟩
        · exact .inr ⟨rfl, .inr rfl⟩
        · exact .inl rfl) d hf3 hf4
      obtain ⟨resp', w, sp3, d4, d5, d6, d7, d8, h⟩ := h a.tells ha.tells.1 ha.tells.2.1 ha.tells.2.2
      refine ⟨r, resp, resp', w, sp3, d1, d2, by rw [hsay]; exact d3, d4, d5, d6, d7, d8, ?_⟩
      intro q' hq' sc2 sp4 i4 i5 i6
      obtain ⟨d', -, k1, k2, sc3, sp5, s2, m, signed, e1, -, e2, e3, e4, e5, e6, e7, rfl⟩ :=
        h q' hq' a.E2 a.E3 sc2 sp4 a.disc' name found hf1 hf2 i4 i5 i6
      exact ⟨sc3, sp5, _, e1, by rw [EndsWell, hsay]; exact ⟨d', m, signed, rfl, by rw [hu]; exact k1, k2, e2⟩, e3, e4, e5, e6, e7⟩
  | no =>
    have hx := ha.asked
    rw [hsay] at hx
    obtain ⟨he, htell, himm⟩ := hx
    obtain ⟨sc1, sp1, s1, req, b1, b2, b3, b4, b7, b5, b6, s0, evs0, hbegin⟩ := live_begin (text := K.text) (pages := K.pages)
      (elsewhere := K.elsewhere) ha.can hK.storeC hK.worksC hK.storeP hK.worksP ha.found ha.anonymous a.token sc sp
      (by rw [hu]; exact hin) (by rw [hu]; exact hrank)
    -- what the provider finds in the request
    have hask : ∃ req' url, extendRequest req a.asks = .ok req' ∧
        req'.redirectURL a.realm (some a.returnTo) a.immediate = .ok url ∧
        ∀ (sp2 : τ), InStep a.e.serverUrl (K.viewC sc1) (K.viewP sp2) → ∀ q, Dict.WF q → (∀ k, q.get? k = (parameters url).get? k) →
        ∃ r, Server.Prog.run K.stepP a.Es.now sp2 (Server.serverEndPoint K.V a.Es (some a.e.serverUrl) K.n K.text q) =
            (sp2, .ok (.ask r)) ∧ Gives (versionOf a.e) a.asks (fun u d => r.message.getArgs (.uri u) = .ok d) := by
      rcases he with he | ⟨he, hanon⟩
      · obtain ⟨sc1', sp1', s1', req2, b1', -, -, -, -, -, -, h⟩ := c76_login (text := K.text) (pages := K.pages)
          (elsewhere := K.elsewhere) hK.uni hK.mac hK.signs hK.reg hK.regV ha.can hK.storeC hK.worksC hK.storeP hK.worksP ha.found
          he ha.anonymous ha.calendar.1 a.token sc sp (by rw [hu]; exact hin) (by rw [hu]; exact hrank)
        rw [b1] at b1'
        simp only [Prod.mk.injEq, Except.ok.injEq] at b1'
        obtain ⟨⟨rfl, rfl⟩, rfl, rfl⟩ := b1'
        obtain ⟨req', url, c1, c2, h⟩ := h a.asks ha.asks a.realm a.returnTo a.current ha.returns a.immediate
        refine ⟨req', url, c1, c2, fun sp2 i1 q i2 i3 => ?_⟩
        obtain ⟨r, resp, d1, -, d2, -⟩ := h a.Es sp2 i1 ha.salt ha.calendar.2 q i2 i3
        exact ⟨r, d1, d2⟩
      · obtain ⟨sc1', sp1', s1', req2, b1', -, -, -, -, -, -, h⟩ := c77_login (text := K.text) (pages := K.pages)
          (elsewhere := K.elsewhere) hK.uni hK.mac hK.signs hK.reg hK.regV ha.can hK.storeC hK.worksC hK.storeP hK.worksP ha.found
          he ha.calendar.1 a.token sc sp (by rw [hu]; exact hin) (by rw [hu]; exact hrank)
        rw [hanon] at b1
        rw [b1] at b1'
        simp only [Prod.mk.injEq, Except.ok.injEq] at b1'
        obtain ⟨⟨rfl, rfl⟩, rfl, rfl⟩ := b1'
        obtain ⟨req', url, c1, c2, h⟩ := h a.asks ha.asks a.realm a.returnTo a.current ha.returns a.immediate
        refine ⟨req', url, c1, c2, fun sp2 i1 q i2 i3 => ?_⟩
        obtain ⟨r, d1, -, d2, -⟩ := h a.Es sp2 i1 ha.salt ha.calendar.2 q i2 i3
        exact ⟨r, d1, d2⟩
    obtain ⟨req', url, c1, c2, hask⟩ := hask
    have he' : Askable a.e ∨ Choosing a.e := he.imp id And.left
    -- and what becomes of the answer
    have hback : ∀ q, Dict.WF q → (∀ k, q.get? k = (parameters url).get? k) →
        ∃ r resp w, Server.decode K.V a.Es (some a.e.serverUrl) q = .ok (some (.checkId r)) ∧
          r.answer K.V a.Es false none none none = .ok resp ∧
          (∀ st, Server.Prog.run K.stepP a.Es.now st (Server.signingEncode K.V a.Es resp) = (st, .ok w)) ∧ (∃ q', Brings w q') ∧
          ∀ q', Brings w q' → ∃ res, Runs (complete K.W K.C a.E2 s1 q' a.current) [] res ∧ EndsWell K.W a res := by
      cases hi : a.immediate with
      | false =>
        obtain ⟨req2, url2, c1', c2', h⟩ := c75_cancelled (σ := τ) (E2 := a.E2) (Es := a.Es) hK.uni hbegin he' ha.returns ha.asks a.current
        rw [c1] at c1'; cases c1'
        rw [hi, c2'] at c2; cases c2
        intro q i2 i3
        obtain ⟨r, resp, w, cancel, d1, d2, d3, d4, -, d5⟩ := h q i2 i3
        refine ⟨r, resp, w, d1, d2, d3 _, d4, fun q' hq' => ?_⟩
        obtain ⟨s2, e1, e2⟩ := d5 q' (.inl hq')
        exact ⟨_, e1, by rw [EndsWell, hsay]; exact ⟨s2, e2, by rw [hi]; rfl⟩⟩
      | true =>
        obtain ⟨hv, hanon⟩ := himm hi
        rw [hanon] at hbegin
        obtain ⟨req2, url2, c1', c2', h⟩ := c75_setup_needed (σ := τ) (E2 := a.E2) (Es := a.Es) hK.uni hbegin he' hv ha.returns ha.asks
          a.current
        rw [c1] at c1'; cases c1'
        rw [hi, c2'] at c2; cases c2
        intro q i2 i3
        obtain ⟨r, resp, w, setup, d1, -, d2, d3, d4, d5, -⟩ := h q i2 i3
        refine ⟨r, resp, w, d1, d2, d3 _, d4, fun q' hq' => ?_⟩
        obtain ⟨s2, e1, e2⟩ := d5 q' hq'
        exact ⟨_, e1, by rw [EndsWell, hsay]; exact ⟨s2, e2, by rw [hi]; exact ⟨setup, rfl⟩⟩⟩
    rw [hu] at b1 b2 b3 b4 b5 hask hback
    refine ⟨sc1, sp1, s1, req, req', url, b1, c1, c2, b2, b3, fun x hx => (b4 x hx).2.1, ?_, b6, b7, ?_⟩
    · exact b5.mono (fun _ _ h => h) fun u h x hx => ⟨hx.1, hx.2.1, hx.2.2.2⟩
    · intro sp2 i1 q i2 i3
      obtain ⟨r, d1, d2⟩ := hask sp2 i1 q i2 i3
      obtain ⟨r', resp, w, e1, e2, e3, e4, e5⟩ := hback q i2 i3
      have hr : r = r' := by
        rw [Server.serverEndPoint, e1] at d1
        have := congrArg Prod.snd d1
        simpa [Server.Prog.run] using this.symm
      subst hr
      refine ⟨r, resp, resp, w, sp2, d1, d2, by rw [hsay]; exact e2, by rw [htell]; rfl, e3 sp2, i1, .rfl' _ _ _ _, e4, ?_⟩
      intro q' hq' sc2 sp4 i4 i5 i6
      obtain ⟨res, f1, f2⟩ := e5 q' hq'
      exact ⟨sc2, sp4, res, live_of_runs f1 ⟨rfl, rfl⟩, f2, i4, fun h => h, .rfl' _ _ _ _, .rfl' _ _ _ _, fun _ _ _ h => .inl h⟩

theorem put_phase {S : Scene σ τ ι} {rp : σ} {op : τ} {i : ι} {p : Phase} (j : ι) :
    (S.put rp op i p).phase j = if j = i then p else S.phase j := rfl

/-- a login begins -/
theorem Standing.begins (hK : WorkTogether K) (hL : ∀ i, Proceeds K untilC untilP (L i)) (hD : Different K L) {S : Scene σ τ ι}
    (h : Standing K L untilC untilP S) {i : ι} (hi : S.phase i = .waiting) : Standing K L untilC untilP (S.begins K L i) := by
  obtain ⟨sc1, sp1, s1, req, req', url, b1, c1, c2, b2, b3, b4, b5, b6, b7, b8⟩ := Props.begins hK (hL i) S.rp S.op h.step h.rank
  have hS : S.begins K L i = S.put sc1 sp1 i (.away s1 url) := by
    simp only [Scene.begins, b1, c1, ok_bind, c2]
  rw [hS]
  have hP := hL i
  have h1 : ∀ k x, K.viewC S.rp K.url k = some x → K.viewC sc1 K.url k = some x := by
    intro k x hx
    obtain ⟨g1, g2, g3, g4⟩ := h.held k x hx
    rcases b5.keeps _ _ _ hx with hk | hk | ⟨-, b, hb, hk⟩
    · exact hk
    · exact absurd hk (lasts g1 hP.timeC.1)
    · exact absurd hi (g3 i b hb hk)
  have h2 : ∀ k x, K.viewC S.rp K.url k = some x → ∀ b, K.viewP S.op t!"http://localhost/|normal" k = some b →
      K.viewP sp1 t!"http://localhost/|normal" k = some b := by
    intro k x hx b hb
    obtain ⟨g1, ⟨b', g2, g2'⟩, g3, g4⟩ := h.held k x hx
    rw [hb] at g2; cases g2
    rcases b6.keeps _ _ _ hb with hk | hk | ⟨b', -, hm, hk⟩
    · exact hk
    · exact absurd hk (lasts g2' hP.timeP.1)
    · exact absurd hi (g3 i b' hm hk)
  have h3 : ∀ j b, Makes K.V (L j).Es b → K.viewP S.op t!"http://localhost/|dumb" b.handle = some b →
      K.viewP sp1 t!"http://localhost/|dumb" b.handle = some b := by
    intro j b hm hb
    rcases b6.keeps _ _ _ hb with hk | hk | ⟨b', hk, -⟩
    · exact hk
    · obtain ⟨_, -, -, e1, e2, -⟩ := hm
      refine absurd hk (lasts (u := untilP) ?_ hP.timeP.1)
      rw [e1, e2]; exact (hL j).timeP.2.2.2.2
    · exact absurd hk (by decide)
  refine ⟨b2, b3, fun u k b hb => ?_, fun k x hx => ?_, fun j hj u t x hn hu => ?_, fun j => ?_⟩
  · rcases b6.adds _ _ _ hb with hk | ⟨-, -, hk⟩
    · exact h.handles _ _ _ hk
    · exact hk.symm
  · rcases b5.adds _ _ _ hx with hk | ⟨-, e1, e2, e3, b, e4, e5, e6⟩
    · obtain ⟨g1, ⟨b', g2, g2'⟩, g3, g4⟩ := h.held k x hk
      refine ⟨g1, ⟨b', h2 k x hk b' g2, g2'⟩, fun j b hb hh => ?_, g4⟩
      rw [put_phase]
      split
      · simp
      · exact g3 j b hb hh
    · have hkb : k = b.handle := by rw [e1, e5.handle]
      refine ⟨by rw [e2, e3]; exact hP.timeC.2.2, ⟨b, e6, ?_⟩, fun j b' hb' hh => ?_, fun j b' hb' hh => ?_⟩
      · obtain ⟨_, -, -, e1, e2, -⟩ := e4
        rw [e1, e2]; exact hP.timeP.2.2.2.1
      · have := hD.shared i j b b' e4 hb' (by rw [← hkb, hh])
        rw [put_phase, if_pos this.symm]
        simp
      · exact hD.apart i j b b' e4 hb' (by rw [← hkb, hh])
  · refine h.nonces j (fun r hr => ?_) u t x hn (b7 u t x hu)
    have := hj r
    rw [put_phase] at this
    split at this
    · next hji => rw [hji, hi] at hr; cases hr
    · exact this hr
  · rw [put_phase]
    split
    · next hji =>
      subst hji
      exact ⟨sc1, req, fun _ _ h => h, b4, b8⟩
    · exact (h.stands j).persist h.handles h1 h2 (h3 j)

/-- the provider answers -/
theorem Standing.answers (hL : ∀ i, Proceeds K untilC untilP (L i)) (hD : Different K L) {S : Scene σ τ ι}
    (h : Standing K L untilC untilP S) {i : ι} {s : UserSession} {url : Str} (hi : S.phase i = .away s url) {q : Dict Str Str}
    (hq : Dict.WF q) (hq' : ∀ k, q.get? k = (parameters url).get? k) : Standing K L untilC untilP (S.answers K L i s q) := by
  have hs := h.stands i
  rw [hi] at hs
  obtain ⟨sc1, req, g1, g2, g3⟩ := hs
  obtain ⟨r, resp, resp', w, sp3, d1, d2, d3, d4, d5, d6, d7, d8, d9⟩ := g3 S.op
    (fun k x hx => h.step k x (g1 k x hx)) q hq hq'
  have hS : S.answers K L i s q = S.put S.rp sp3 i (.back s r w) := by
    simp only [Scene.answers, d1, d3, d4, d5]
  rw [hS]
  have hP := hL i
  have hsoon : (L i).Es.seconds K.V < untilP := by have := hP.timeP; omega
  have h2 : ∀ k x, K.viewC S.rp K.url k = some x → ∀ b, K.viewP S.op t!"http://localhost/|normal" k = some b →
      K.viewP sp3 t!"http://localhost/|normal" k = some b := by
    intro k x hx b hb
    obtain ⟨-, ⟨b', g2, g2'⟩, -, -⟩ := h.held k x hx
    rw [hb] at g2; cases g2
    rcases d7.keeps _ _ _ hb with hk | hk | ⟨b', hk, -⟩
    · exact hk
    · exact absurd hk (lasts g2' hsoon)
    · exact absurd hk (by decide)
  have h3 : ∀ j, j ≠ i → ∀ b, Makes K.V (L j).Es b → K.viewP S.op t!"http://localhost/|dumb" b.handle = some b →
      K.viewP sp3 t!"http://localhost/|dumb" b.handle = some b := by
    intro j hj b hm hb
    rcases d7.keeps _ _ _ hb with hk | hk | ⟨b', -, hm', hk⟩
    · exact hk
    · obtain ⟨_, -, -, e1, e2, -⟩ := hm
      refine absurd hk (lasts (u := untilP) ?_ hsoon)
      rw [e1, e2]; exact (hL j).timeP.2.2.2.2
    · exact absurd (hD.secret j i b b' hm hm' hk) hj
  refine ⟨?_, h.rank, fun u k b hb => ?_, fun k x hx => ?_, fun j hj u t x hn hu => ?_, fun j => ?_⟩
  · intro k x hx
    obtain ⟨p1, p2, p3, p4, p5⟩ := h.step k x hx
    refine ⟨p1, p2, p3, p4, fun b hb => ?_⟩
    rcases d7.adds _ _ _ hb with hk | ⟨hk, -⟩
    · exact p5 b hk
    · exact absurd hk (by decide)
  · rcases d7.adds _ _ _ hb with hk | ⟨-, -, hk⟩
    · exact h.handles _ _ _ hk
    · exact hk.symm
  · obtain ⟨g1, ⟨b', g2, g2'⟩, g3, g4⟩ := h.held k x hx
    refine ⟨g1, ⟨b', h2 k x hx b' g2, g2'⟩, fun j b hb hh => ?_, g4⟩
    rw [put_phase]
    split
    · simp
    · exact g3 j b hb hh
  · refine h.nonces j (fun r hr => ?_) u t x hn hu
    have := hj r
    rw [put_phase] at this
    split at this
    · next hji => rw [hji, hi] at hr; cases hr
    · exact this hr
  · rw [put_phase]
    split
    · next hji =>
      subst hji
      refine ⟨d2, d8, req, sp3, fun x hx => ?_, fun _ _ _ h => h, d9⟩
      have hx1 := g1 _ _ (g2 x hx)
      obtain ⟨-, ⟨b', k2, -⟩, -, -⟩ := h.held _ x hx1
      have := h2 _ x hx1 b' k2
      exact ⟨hx1, b', this, this⟩
    · next hji => exact (h.stands j).persist h.handles (fun _ _ h => h) h2 (h3 j hji)

/-- the answer comes back -/
theorem Standing.completes (hL : ∀ i, Proceeds K untilC untilP (L i)) (hD : Different K L) {S : Scene σ τ ι}
    (h : Standing K L untilC untilP S) {i : ι} {s : UserSession} {r : Server.CheckIDRequest} {w : Server.WebResponse}
    (hi : S.phase i = .back s r w) {q : Dict Str Str} (hq : Brings w q) : Standing K L untilC untilP (S.completes K L i s q) := by
  have hs := h.stands i
  rw [hi] at hs
  obtain ⟨-, -, req, sp3, g2, g3, g4⟩ := hs
  have hP := hL i
  have hun : Undisturbed K.W K.V K.url req.assoc (L i).Es (L i).E3 (L i).E2 (K.viewC S.rp) (K.viewP sp3) (K.viewP S.op) := by
    refine ⟨fun x hx => ?_, fun b hb => ?_, g3, fun x b hx hb => ?_, ?_⟩
    · obtain ⟨k1, -⟩ := g2 x hx
      exact ⟨k1, lasts (h.held _ _ k1).1 hP.timeC.2.1⟩
    · cases hv : K.viewC S.rp K.url b.handle with
      | none => rfl
      | some x => exact absurd rfl ((h.held _ _ hv).2.2.2 i b hb)
    · obtain ⟨-, b', k2, k3⟩ := g2 x hx
      rw [hb] at k3; cases k3; exact k2
    · have := hP.timeP; omega
  obtain ⟨sc3, sp5, res, e1, e2, e3, e4, e5, e6, e7⟩ := g4 q hq S.rp S.op h.step hun
    (unused_of hP.recent (h.nonces i (fun r hr => by rw [hi] at hr; cases hr)))
  have hS : S.completes K L i s q = S.put sc3 sp5 i (.over res) := by
    simp only [Scene.completes, e1]
  rw [hS]
  have hsoon : (L i).Es.seconds K.V < untilP := by have := hP.timeP; omega
  have h1 : ∀ k x, K.viewC S.rp K.url k = some x → K.viewC sc3 K.url k = some x := by
    intro k x hx
    obtain ⟨g1, ⟨b, gb, gb'⟩, -, -⟩ := h.held k x hx
    rcases e5.keeps _ _ _ hx with hk | hk | ⟨-, y, hy, rfl, hb⟩
    · exact hk
    · exact absurd hk (lasts g1 hP.timeC.2.1)
    · obtain ⟨-, b', k2, k3⟩ := g2 y hy
      rw [gb] at k3; cases k3
      exact absurd (hb b k2) (lasts gb' hsoon)
  have h2 : ∀ k x, K.viewC S.rp K.url k = some x → ∀ b, K.viewP S.op t!"http://localhost/|normal" k = some b →
      K.viewP sp5 t!"http://localhost/|normal" k = some b := by
    intro k x hx b hb
    obtain ⟨-, ⟨b', g2, g2'⟩, -, -⟩ := h.held k x hx
    rw [hb] at g2; cases g2
    rcases e6.keeps _ _ _ hb with hk | hk | ⟨b', hk, -⟩
    · exact hk
    · exact absurd hk (lasts g2' hP.timeP.2.2.1)
    · exact absurd hk (by decide)
  have h3 : ∀ j, j ≠ i → ∀ b, Makes K.V (L j).Es b → K.viewP S.op t!"http://localhost/|dumb" b.handle = some b →
      K.viewP sp5 t!"http://localhost/|dumb" b.handle = some b := by
    intro j hj b hm hb
    rcases e6.keeps _ _ _ hb with hk | hk | ⟨b', -, hm', hk⟩
    · exact hk
    · obtain ⟨_, -, -, e1, e2, -⟩ := hm
      refine absurd hk (lasts (u := untilP) ?_ hP.timeP.2.2.1)
      rw [e1, e2]; exact (hL j).timeP.2.2.2.2
    · exact absurd (hD.secret j i b b' hm hm' hk) hj
  refine ⟨e3, e4 h.rank, fun u k b hb => ?_, fun k x hx => ?_, fun j hj u t x hn hu => ?_, fun j => ?_⟩
  · rcases e6.adds _ _ _ hb with hk | hk
    · exact h.handles _ _ _ hk
    · exact hk.elim
  · rcases e5.adds _ _ _ hx with hx | hx
    · obtain ⟨g1, ⟨b', g2, g2'⟩, g3, g4⟩ := h.held k x hx
      refine ⟨g1, ⟨b', h2 k x hx b' g2, g2'⟩, fun j b hb hh => ?_, g4⟩
      rw [put_phase]
      split
      · simp
      · exact g3 j b hb hh
    · exact hx.elim
  · by_cases hji : j = i
    · exact hj res (by rw [put_phase, if_pos hji])
    · rcases e7 u t x hu with hu | hu
      · refine h.nonces j (fun r hr => ?_) u t x hn hu
        have := hj r
        rw [put_phase, if_neg hji] at this
        exact this hr
      · exact hji (hD.nonces j i u t x hn hu)
  · rw [put_phase]
    split
    · next hji => subst hji; exact e2
    · next hji => exact (h.stands j).persist h.handles h1 h2 (h3 j hji)

/-- and whatever else -/
theorem Standing.other (hL : ∀ i, Proceeds K untilC untilP (L i)) {S S' : Scene σ τ ι}
    (h : Standing K L untilC untilP S) (hh : Harmless K L untilP S S') : Standing K L untilC untilP S' := by
  have h2 : ∀ k x, K.viewC S.rp K.url k = some x → ∀ b, K.viewP S.op t!"http://localhost/|normal" k = some b →
      K.viewP S'.op t!"http://localhost/|normal" k = some b := by
    intro k x hx b hb
    obtain ⟨-, ⟨b', g2, g2'⟩, -, -⟩ := h.held k x hx
    rw [hb] at g2; cases g2
    exact hh.keeps _ _ _ hb g2'
  refine ⟨fun k x hx => ?_, hh.rank h.rank, hh.handles, fun k x hx => ?_, fun j hj u t x hn hu => ?_, fun j => ?_⟩
  · rw [hh.held] at hx
    obtain ⟨p1, p2, p3, p4, p5⟩ := h.step k x hx
    refine ⟨p1, p2, p3, p4, fun b hb => ?_⟩
    obtain ⟨-, ⟨b', g2, -⟩, -, -⟩ := h.held k x hx
    have := h2 k x hx b' g2
    rw [hb] at this; cases this
    exact p5 b g2
  · rw [hh.held] at hx
    obtain ⟨g1, ⟨b', g2, g2'⟩, g3, g4⟩ := h.held k x hx
    exact ⟨g1, ⟨b', h2 k x hx b' g2, g2'⟩, by rw [hh.phase]; exact g3, g4⟩
  · rw [hh.phase] at hj
    rcases hh.nonces u t x hu with hu | hu
    · exact h.nonces j hj u t x hn hu
    · exact hu j hn
  · rw [hh.phase]
    refine (h.stands j).persist h.handles (fun k x hx => by rw [hh.held]; exact hx) h2 fun b hb hv => hh.keeps _ _ _ hv ?_
    obtain ⟨_, -, -, e1, e2, -⟩ := hb
    rw [e1, e2]; exact (hL j).timeP.2.2.2.2

theorem Standing.goes (hK : WorkTogether K) (hL : ∀ i, Proceeds K untilC untilP (L i)) (hD : Different K L) {S S' : Scene σ τ ι}
    {l : List (Move σ τ ι)} (h : Standing K L untilC untilP S) (hg : Goes K L untilP S l S') : Standing K L untilC untilP S' := by
  induction l generalizing S with
  | nil => cases hg; exact h
  | cons m l ih =>
    cases m with
    | begin i => exact ih (h.begins hK hL hD hg.1) hg.2
    | answer i q =>
      obtain ⟨s, url, h1, h2, h3, h4⟩ := hg
      exact ih (h.answers hL hD h1 h2 h3) h4
    | complete i q =>
      obtain ⟨s, r, w, h1, h2, h3⟩ := hg
      exact ih (h.completes hL hD h1 h2) h3
    | other rp op => exact ih (h.other hL hg.1) hg.2

end Props
