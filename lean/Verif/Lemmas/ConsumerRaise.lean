import Verif.Lemmas.ConsumerAccept
import Verif.Lemmas.Nonce
import Verif.Lemmas.MessageClash
import Verif.Spec.Unfinished
/-! # What the parts of a completion raise -/

namespace KVForm
open Py

theorem parseLines_lax (l : List Str) : ∃ r, parseLines false l = .ok r := by
  induction l with
  | nil => exact ⟨_, rfl⟩
  | cons a r ih =>
    obtain ⟨x, hx⟩ := ih
    rw [parseLines]
    split
    · exact ⟨x, hx⟩
    · split
      · simp [hx]
      · exact ⟨x, hx⟩

theorem kvToDict_total (s : Str) : ∃ d, kvToDict s = .ok d ∧ Dict.WF d := by
  have : ∃ l, dataLines false s = .ok l := by
    unfold dataLines
    simp only
    split
    · exact ⟨_, rfl⟩
    · exact ⟨_, rfl⟩
  obtain ⟨l, hl⟩ := this
  obtain ⟨r, hr⟩ := parseLines_lax l
  exact ⟨Dict.ofPairs r, by rw [kvToDict, kvToSeq, hl, ok_bind, hr]; rfl, Dict.WF_ofPairs _⟩

end KVForm

namespace Consumer
open Py Message Association Cryptutil Store Discover Spec
open Server (Parsed parsed)

/-- an exception that `complete` turns into a failure -/
def Caught (e : PyErr) : Prop := e = .protocolError ∨ e = .typeURIMismatch ∨ e = .discoveryFailure

theorem _root_.Spec.Outside.mono {reg : Dict Str Str} {evs evs' : List Ev} {e : PyErr} (h : Outside reg evs e) (hs : ∀ x ∈ evs, x ∈ evs') : Outside reg evs' e := by
  cases h with
  | store op _ h => exact .store op _ (hs _ h)
  | kind op r h1 h2 => exact .kind op r (hs _ h1) h2
  | discovery id _ h => exact .discovery id _ (hs _ h)
  | fetch u b _ h1 h2 => exact .fetch u b _ (hs _ h1) h2
  | reply u b r _ h1 h2 => exact .reply u b r _ (hs _ h1) h2

/-! ## The store -/

theorem fetchAssoc_error {reg : Dict Str Str} {url : Str} {h : Option Str} {evs : List Ev} {x : Err} (hr : Runs (fetchAssoc url h) evs (.error x)) :
    ∃ e, x = .py e ∧ Outside reg evs e := by
  rw [fetchAssoc] at hr
  obtain ⟨o, rest, rfl, hr⟩ := hr
  dsimp only at hr
  split at hr
  · simp at hr
  · next r hne =>
    simp only [badAnswer, runs_raise] at hr
    refine ⟨.typeError, by simpa using hr.2.symm, .kind _ r (.head _) ?_⟩
    cases r <;> first | exact absurd rfl (hne _) | trivial
  · next e =>
    simp only [runs_raise] at hr
    exact ⟨e, by simpa using hr.2.symm, .store _ e (.head _)⟩

theorem useNonce_error {reg : Dict Str Str} {url : Str} {t : Int} {salt : Str} {evs : List Ev} {x : Err}
    (hr : Runs (useNonce url t salt) evs (.error x)) : ∃ e, x = .py e ∧ Outside reg evs e := by
  rw [useNonce] at hr
  obtain ⟨o, rest, rfl, hr⟩ := hr
  dsimp only at hr
  split at hr
  · simp at hr
  · next r hne =>
    simp only [badAnswer, runs_raise] at hr
    refine ⟨.typeError, by simpa using hr.2.symm, .kind _ r (.head _) ?_⟩
    cases r <;> first | exact absurd rfl (hne _) | trivial
  · next e =>
    simp only [runs_raise] at hr
    exact ⟨e, by simpa using hr.2.symm, .store _ e (.head _)⟩

theorem putAssoc_error {reg : Dict Str Str} {url : Str} {a : Assoc} {evs : List Ev} {x : Err} (hr : Runs (putAssoc url a) evs (.error x)) :
    ∃ e, x = .py e ∧ Outside reg evs e := by
  rw [putAssoc] at hr
  obtain ⟨o, rest, rfl, hr⟩ := hr
  dsimp only at hr
  split at hr
  · simp at hr
  · next e =>
    simp only [runs_raise] at hr
    exact ⟨e, by simpa using hr.2.symm, .store _ e (.head _)⟩

theorem dropAssoc_error {reg : Dict Str Str} {url h : Str} {evs : List Ev} {x : Err} (hr : Runs (dropAssoc url h) evs (.error x)) :
    ∃ e, x = .py e ∧ Outside reg evs e := by
  rw [dropAssoc] at hr
  obtain ⟨o, rest, rfl, hr⟩ := hr
  dsimp only at hr
  split at hr
  · simp at hr
  · next e =>
    simp only [runs_raise] at hr
    exact ⟨e, by simpa using hr.2.symm, .store _ e (.head _)⟩

/-! ## Direct requests -/

theorem http_error {W : World} {r : Http} {x : Err} (h : httpResponseToMessage W r = .error x) :
    x = .py .fetchingError ∨
    (∃ c m, x = .server c m ∧ ∀ k, '.' ∉ k → k ≠ t!"ns" → ∃ o, m.getArg .openid k = .ok o) ∨ ∃ e, x = .py e ∧ BadReply W.reg r e := by
  rw [httpResponseToMessage] at h
  cases ht : Utf8.decode r.body with
  | error e =>
    rw [ht] at h
    simp only [lift, error_bind, Except.error.injEq] at h
    exact .inr (.inr ⟨e, h.symm, .text e ht⟩)
  | ok text =>
    rw [ht] at h
    simp only [lift, ok_bind] at h
    obtain ⟨d, hd, hw⟩ := KVForm.kvToDict_total text
    rw [fromKVForm, hd, ok_bind] at h
    cases hm : fromOpenIDArgs W.reg d with
    | error e =>
      rw [hm] at h
      simp only [error_bind, Except.error.injEq] at h
      refine .inr (.inr ⟨e, h.symm, ?_⟩)
      rcases (parse_from (reg := W.reg) hw).2 e hm with ⟨rfl, u, h1, h2⟩ | ⟨-, h2⟩
      · exact .version text d u ht hd h1 h2
      · exact .names text d e ht hd h2
    | ok m =>
      rw [hm] at h
      simp only [ok_bind] at h
      have hget := (fromOpenIDArgs_has hw hm).2
      split at h
      · rw [serverError, hget _ (by decide) (by decide)] at h
        simp only [lift, ok_bind] at h
        rw [hget _ (by decide) (by decide)] at h
        simp only [ok_bind, Except.error.injEq] at h
        exact .inr (.inl ⟨_, _, h.symm, fun k a b => ⟨_, hget k a b⟩⟩)
      · split at h
        · simp at h
        · simp only [Except.error.injEq] at h; exact .inl h.symm

/-! ## URLs -/

theorem urlparse_error {U : Url.Uni} {u : Str} {e : PyErr} (h : Url.urlparse U u = .error e) : e = .valueError := by
  rw [Url.urlparse] at h
  rcases bind_eq_error.1 h with h | ⟨s, -, h⟩
  · exact Url.urlsplit_error _ _ _ h
  · simp at h

theorem urldefrag_error {U : Url.Uni} {u : Str} {e : PyErr} (h : Url.urldefrag U u = .error e) : e = .valueError := by
  rw [Url.urldefrag] at h
  split at h
  · rcases bind_eq_error.1 h with h | ⟨s, -, h⟩
    · exact urlparse_error h
    · simp at h
  · simp at h

theorem sameBase_error {W : World} {a b : Str} {e : PyErr} (h : sameBase W a b = .error e) :
    e = .valueError ∧ (BadUrl W.uni a ∨ BadUrl W.uni b) := by
  rw [sameBase] at h
  rcases bind_eq_error.1 h with h | ⟨a1, ha, h⟩
  · have := Props.c26_errors _ _ _ h
    subst this; exact ⟨rfl, .inl (.inr (.inl h))⟩
  · rcases bind_eq_error.1 h with h | ⟨a2, -, h⟩
    · have := urlparse_error h
      subst this; exact ⟨rfl, .inl (.inr (.inr ⟨a1, ha, h⟩))⟩
    · rcases bind_eq_error.1 h with h | ⟨b1, hb, h⟩
      · have := Props.c26_errors _ _ _ h
        subst this; exact ⟨rfl, .inr (.inr (.inl h))⟩
      · rcases bind_eq_error.1 h with h | ⟨b2, -, h⟩
        · have := urlparse_error h
          subst this; exact ⟨rfl, .inr (.inr (.inr ⟨b1, hb, h⟩))⟩
        · simp at h

theorem checkReturnToArgs_error {q : Dict Str Str} {l : List (Str × Str)} {e : PyErr}
    (h : checkReturnToArgs q l = .error e) : e = .protocolError := by
  induction l with
  | nil => simp [checkReturnToArgs] at h
  | cons p r ih =>
    obtain ⟨k, v⟩ := p
    rw [checkReturnToArgs] at h
    split at h
    · exact ih h
    · simpa using h.symm

theorem returnTo_error {W : World} {m : Msg} {q : Dict Str Str} {current rt : Str} (hq : Dict.WF q) (hg : Got W.reg m q)
    (hm : fromPostArgs W.reg q = .ok m)
    (hreg : ∀ a u, W.reg.get? a = some u → u ≠ t!"sreg") (hmode : arg q t!"mode" = some t!"id_res")
    (hrt : arg q t!"return_to" = some rt) {e : PyErr} (h : returnToMatches W m current = .error e)
    (session : Option Endpoint) (evs : List Ev) :
    Caught e ∨ Unfinished W session q current evs e := by
  have hw : Dict.WF m.toPostArgs := by rw [toPostArgs_eq]; exact Dict.WF_ofPairs _
  rw [returnToMatches] at h
  rcases bind_eq_error.1 h with h | ⟨b, -, h⟩
  · rw [checkReturnTo] at h
    split at h
    · next x hv =>
      split at h
      · cases h
      · next hx =>
        simp only [Except.error.injEq] at h; subst h
        rw [verifyReturnToArgs] at hv
        rcases bind_eq_error.1 hv with hv | ⟨m2, g1, hv⟩
        · right
          by_cases hlit : ∃ alias, q.get? (t!"openid.ns." ++ alias) = some t!"sreg"
          · obtain ⟨alias, hl⟩ := hlit
            refine .literal alias _ hmode hl ?_
            rcases fromPostArgs_error hw hv with ⟨rfl, -⟩ | ⟨-, rfl | rfl, -⟩ <;> simp
          · obtain ⟨-, hs⟩ := Props.c07_roundtrip W.reg q hq hreg (fun a u hu he => hlit ⟨a, by rw [hu, he]⟩) m hm
            exfalso
            rcases fromPostArgs_why hw hv with ⟨-, u, h1, h2⟩ | ⟨-, h2⟩
            · rw [arg, hs] at h1
              change q.get? t!"openid.ns" = some u at h1
              obtain ⟨oid, ho⟩ := hg.ns
              have := (fromPostArgs_has hq hm).1
              have h5 := this.inv.oid
              rw [h1] at this
              have h6 := h5 _ (by simpa [Msg.getOpenIDNamespace] using this.ns)
              exact h2 h6
            · have hfe : arg m.toPostArgs = arg q := by funext k; exact hs _
              rw [hfe] at h2
              exact fromPostArgs_noclash hq hm hreg (fun a ha => hlit ⟨a, ha⟩) _ h2
        · rcases bind_eq_error.1 hv with hv | ⟨rt2, g2, hv⟩
          · have hg2 := got hw g1
            rw [hg2.get _ (by decide) (by decide)] at hv; cases hv
          · have hg2 := got hw g1
            rw [hg2.get _ (by decide) (by decide)] at g2
            rw [show arg m.toPostArgs t!"return_to" = some rt by
              rw [arg, hg.post _ (by decide) (by decide)]; exact hrt] at g2
            simp only [Except.ok.injEq] at g2; subst g2
            simp only at hv
            rcases bind_eq_error.1 hv with hv | ⟨u, -, hv⟩
            · have := urlparse_error hv
              subst this
              exact .inr (.url rt hmode (.inl hrt) (.inl hv))
            · rcases bind_eq_error.1 hv with hv | ⟨_, -, hv⟩
              · have := checkReturnToArgs_error hv
                subst this; exact .inl (.inl rfl)
              · rcases bind_eq_error.1 hv with hv | ⟨_, -, hv⟩
                · simp [Msg.getArgs, Msg.fixNS] at hv
                · split at hv
                  · simp at hv
                  · simp at hv; subst hv; exact .inl (.inl rfl)
    · rw [hg.get _ (by decide) (by decide), hrt] at h
      simp only [ok_bind, Option.getD_some] at h
      obtain ⟨rfl, h1 | h1⟩ := sameBase_error h
      · exact .inr (.url current hmode (.inr rfl) h1)
      · exact .inr (.url rt hmode (.inl hrt) h1)
  · split at h
    · simp at h
    · simp at h; subst h; exact .inl (.inl rfl)

/-! ## Discovery -/

theorem single_error {W : World} {d : Endpoint} {t : ToMatch} {e : PyErr} (h : verifyDiscoverySingle W d t = .error e) :
    isProtocolError (.py e) = true ∨ ∃ c, t.claimedId = some c ∧ Url.urldefrag W.uni c = .error .valueError ∧ e = .valueError := by
  rw [verifyDiscoverySingle] at h
  rcases bind_eq_error.1 h with h | ⟨_, -, h⟩
  · have : ∀ l : List Str, ∀ e, checkTypes d l = .error e → e = .typeURIMismatch := by
      intro l
      induction l with
      | nil => intro e h; simp [checkTypes] at h
      | cons t r ih =>
        intro e h
        rw [checkTypes] at h
        split at h
        · exact ih _ h
        · simpa using h.symm
    rw [this _ _ h]; exact .inl rfl
  · rcases bind_eq_error.1 h with h | ⟨_, -, h⟩
    · cases hc : t.claimedId with
      | none => rw [hc, checkClaimed] at h; simp at h; subst h; exact .inl rfl
      | some c =>
        rw [hc, checkClaimed] at h
        rcases bind_eq_error.1 h with h | ⟨⟨x, y⟩, -, h⟩
        · have := urldefrag_error h
          subst this; exact .inr ⟨c, rfl, h, rfl⟩
        · simp only at h
          split at h
          · simp at h
          · simp at h; subst h; exact .inl rfl
    · split at h
      · simp at h; subst h; exact .inl rfl
      · split at h
        · simp at h
        · split at h
          · simp at h
          · simp at h; subst h; exact .inl rfl

theorem matchesAny_error {W : World} {d : Endpoint} {l : List ToMatch} {e : PyErr} (h : matchesAny W d l = .error e) :
    ∃ t ∈ l, ∃ c, t.claimedId = some c ∧ Url.urldefrag W.uni c = .error .valueError ∧ e = .valueError := by
  induction l with
  | nil => simp [matchesAny] at h
  | cons t r ih =>
    rw [matchesAny] at h
    split at h
    · cases h
    · next x hx =>
      split at h
      · obtain ⟨t', h1, h2⟩ := ih h
        exact ⟨t', by simp [h1], h2⟩
      · next hp =>
        simp only [Except.error.injEq] at h; subst h
        exact ⟨t, by simp, (single_error hx).resolve_left hp⟩

theorem services_error {W : World} {ms : List ToMatch} {l : List Endpoint} {e : PyErr}
    (h : verifyDiscoveredServices W ms l = .error e) :
    e = .discoveryFailure ∨ ∃ t ∈ ms, ∃ c, t.claimedId = some c ∧ Url.urldefrag W.uni c = .error .valueError ∧
      e = .valueError := by
  induction l with
  | nil => rw [verifyDiscoveredServices] at h; simp at h; exact .inl h.symm
  | cons d r ih =>
    rw [verifyDiscoveredServices] at h
    rcases bind_eq_error.1 h with h | ⟨b, -, h⟩
    · exact .inr (matchesAny_error h)
    · split at h
      · simp at h
      · exact ih h

/-- what goes wrong in finding the endpoint for a claimed identifier -/
def FindError (W : World) (claimed : Option Str) (evs : List Ev) (x : Err) : Prop :=
  ∃ e, x = .py e ∧ (Caught e ∨ Outside W.reg evs e ∨ (claimed = none ∧ e = .attributeError) ∨
    ∃ c, claimed = some c ∧ Url.urldefrag W.uni c = .error .valueError ∧ e = .valueError)

theorem discoverAndVerify_error {W : World} {ms : List ToMatch} {id : Option Str} {evs : List Ev} {x : Err}
    (hms : ∀ t ∈ ms, t.claimedId = id) (h : Runs (discoverAndVerify W ms id) evs (.error x)) : FindError W id evs x := by
  cases id with
  | none =>
    simp [discoverAndVerify] at h
    exact ⟨_, h.2.symm, .inr (.inr (.inl ⟨rfl, rfl⟩))⟩
  | some c =>
    rw [discoverAndVerify, runs_bind] at h
    rcases h with ⟨e1, e2, r, rfl, -, h⟩ | ⟨y, hy, h⟩
    · obtain ⟨rfl, hl⟩ := (runs_ofPy _ _ _).1 h
      cases hv : verifyDiscoveredServices W ms r.2 with
      | ok d => rw [hv] at hl; simp [lift] at hl
      | error e =>
        rw [hv] at hl
        simp only [lift, Except.error.injEq] at hl
        refine ⟨e, hl.symm, ?_⟩
        rcases services_error hv with rfl | ⟨t, ht, c', h1, h2, h3⟩
        · exact .inl (.inr (.inr rfl))
        · rw [hms t ht] at h1
          exact .inr (.inr (.inr ⟨c', h1, h2, h3⟩))
    · cases hy
      obtain ⟨o, rfl, hl⟩ := runs_discover.1 h
      cases o with
      | ok r => simp [lift] at hl
      | error e =>
        simp only [lift, Except.error.injEq] at hl
        exact ⟨e, hl.symm, .inr (.inl (.discovery c e (.head _)))⟩

theorem stored_error {W : World} {d : Endpoint} {a b : ToMatch} {e : PyErr} (hab : a.claimedId = b.claimedId)
    (h : verifyStored1 W d a b = .error e) :
    isProtocolError (.py e) = true ∨ ∃ c, a.claimedId = some c ∧ Url.urldefrag W.uni c = .error .valueError ∧ e = .valueError := by
  rw [verifyStored1] at h
  split at h
  · rw [hab]; exact single_error h
  · exact single_error h

theorem discovery_error {W : World} {m : Msg} {q : Dict Str Str} {session : Option Endpoint} {evs : List Ev} {x : Err}
    {current : Str} (hg : Got W.reg m q)
    (hv : (m.getOpenIDNamespace = some OPENID2_NS ∧ ¬ IsV1 q ∧ m.isOpenID1 = false) ∨
     (m.getOpenIDNamespace = some OPENID1_NS ∧ IsV1 q ∧ m.isOpenID1 = true))
    (hmode : arg q t!"mode" = some t!"id_res")
    (hf : ∀ f ∈ neededFields (decide (IsV1 q)), ∃ v, arg q f = some v)
    (h : Runs (verifyDiscoveryResults W m session) evs (.error x)) :
    ∃ e, x = .py e ∧ (Caught e ∨ Unfinished W session q current evs e) := by
  rw [verifyDiscoveryResults] at h
  rcases hv with ⟨ho, hv, -⟩ | ⟨ho, hv, -⟩
  · rw [if_pos ho, verifyDiscoveryResults2] at h
    have g : ∀ k, '.' ∉ k → k ≠ t!"ns" → m.getArg (.uri OPENID2_NS) k = .ok (arg q k) := fun k a b => by
      rw [getArg_uri ho (by decide), hg.get k a b]
    rcases (runs_py_bind _ _ _ _).1 h with ⟨claimed, h1, h⟩ | ⟨e, h1, -⟩
    rotate_left
    · rw [g _ (by decide) (by decide)] at h1; cases h1
    rcases (runs_py_bind _ _ _ _).1 h with ⟨ident, h2, h⟩ | ⟨e, h1, -⟩
    rotate_left
    · rw [g _ (by decide) (by decide)] at h1; cases h1
    rw [g _ (by decide) (by decide)] at h1 h2
    simp only [Except.ok.injEq] at h1 h2
    rcases (runs_py_bind _ _ _ _).1 h with ⟨server, h3, h⟩ | ⟨e, h3, -⟩
    rotate_left
    · obtain ⟨v, hv'⟩ := hf t!"op_endpoint" (by simp [neededFields, hv])
      have : m.getArgReq (.uri OPENID2_NS) t!"op_endpoint" = .ok v := by
        rw [getArgReq_ok, g _ (by decide) (by decide), hv']
      rw [this] at h3; cases h3
    rcases claimed with _ | c <;> rcases ident with _ | i
    · simp at h
    · simp at h; exact ⟨_, h.2.symm, .inl (.inl rfl)⟩
    · simp at h; exact ⟨_, h.2.symm, .inl (.inl rfl)⟩
    · simp only at h
      rcases (runs_bind _ _ _ _).1 h with ⟨_, _, _, -, -, k⟩ | ⟨y, hy, h⟩
      · simp at k
      · cases hy
        have key : FindError W (some c) evs x → ∃ e, x = .py e ∧ (Caught e ∨ Unfinished W session q current evs e) := by
          rintro ⟨e, hx, z | z | ⟨z, -⟩ | ⟨c', z, z', z3⟩⟩
          · exact ⟨e, hx, .inl z⟩
          · exact ⟨e, hx, .inr (.outside e hmode z)⟩
          · cases z
          · cases z
            exact ⟨e, hx, .inr (z3 ▸ .claimed c hmode (by rw [if_neg hv]; exact h1) z')⟩
        have hdv : ∀ h : Runs (discoverAndVerify W [⟨[OPENID_2_0_TYPE], some c, some i, some server⟩] (some c)) evs (.error x),
            FindError W (some c) evs x := fun h => discoverAndVerify_error (by simp) h
        cases session with
        | none => exact key (hdv h)
        | some d =>
          rw [endpointFor2] at h
          split at h
          · simp at h
          · next y hy =>
            split at h
            · exact key (hdv h)
            · next hp =>
              simp only [runs_raise, Except.error.injEq] at h
              refine key ⟨y, h.2.symm, .inr (.inr (.inr ?_))⟩
              exact (single_error hy).resolve_left hp
  · rw [if_neg (by rw [ho]; decide), verifyDiscoveryResults1] at h
    rcases (runs_py_bind _ _ _ _).1 h with ⟨a, h1, h⟩ | ⟨e, h1, -⟩
    rotate_left
    · rw [hg.bare _ (by decide)] at h1; cases h1
    rw [hg.bare _ (by decide)] at h1
    simp only [Except.ok.injEq] at h1
    have h1' : q.get? t!"openid1_claimed_id" = a := h1
    rcases (runs_py_bind _ _ _ _).1 h with ⟨claimed, h2, h⟩ | ⟨e, h2, h3, -⟩
    rotate_left
    · cases h3
      refine ⟨e, rfl, .inr (.nobody e hmode hv ?_ ?_)⟩
      · rw [claimedIn, h1']
        cases a <;> cases session <;> simp_all [claimedId1]
      · cases a <;> cases session <;> simp_all [claimedId1]
    have hc : claimedIn session q = claimed := by
      rw [claimedIn, h1']
      cases a <;> cases session <;> simp [claimedId1] at h2 ⊢ <;> exact h2
    have hse : claimed = none → session ≠ none := by
      rintro rfl rfl
      cases a <;> simp [claimedId1] at h2
    rcases (runs_py_bind _ _ _ _).1 h with ⟨ident, h3, h⟩ | ⟨e, h3, -⟩
    rotate_left
    · rw [getArg_uri ho (by decide), hg.get _ (by decide) (by decide)] at h3; cases h3
    cases ident with
    | none => simp at h; exact ⟨_, h.2.symm, .inl (.inl rfl)⟩
    | some i =>
      simp only at h
      have key : FindError W claimed evs x → ∃ e, x = .py e ∧ (Caught e ∨ Unfinished W session q current evs e) := by
        rintro ⟨e, hx, z | z | ⟨z, z'⟩ | ⟨c', z, z', z3⟩⟩
        · exact ⟨e, hx, .inl z⟩
        · exact ⟨e, hx, .inr (.outside e hmode z)⟩
        · exact ⟨e, hx, .inr (.nobody _ hmode hv (by rw [hc, z]) (by rw [if_neg (hse z), z']))⟩
        · exact ⟨e, hx, .inr (z3 ▸ .claimed c' hmode (by rw [if_pos hv, hc, z]) z')⟩
      have hdv : ∀ h : Runs (discoverAndVerify W [⟨[OPENID_1_1_TYPE], claimed, some i, none⟩,
          ⟨[OPENID_1_0_TYPE], claimed, some i, none⟩] claimed) evs (.error x),
          FindError W claimed evs x := fun h => discoverAndVerify_error (by simp) h
      cases session with
      | none => exact key (hdv h)
      | some d =>
        rw [endpointFor1] at h
        split at h
        · simp at h
        · next y hy =>
          split at h
          · exact key (hdv h)
          · next hp =>
            simp only [runs_raise, Except.error.injEq] at h
            refine key ⟨y, h.2.symm, .inr (.inr (.inr ?_))⟩
            exact (stored_error (a := ⟨[OPENID_1_1_TYPE], claimed, some i, none⟩)
              (b := ⟨[OPENID_1_0_TYPE], claimed, some i, none⟩) rfl hy).resolve_left hp

/-! ## The fields -/

theorem fields_error {m : Msg} {q : Dict Str Str} (hp : Parsed m q) (hpost : ∀ v, q.get? t!"openid.ns" = some v → m.getOpenIDNamespace = some v)
    (hnone : q.get? t!"openid.ns" = none → m.getOpenIDNamespace = some OPENID1_NS)
    (hver : ∀ v, m.getOpenIDNamespace = some v → v ∈ versions)
    {e : PyErr} (h : idResCheckForFields m = .error e) :
    e = .protocolError ∨ (e = .keyError ∧ arg q t!"ns" = some t!"http://openid.net/signon/1.1") := by
  obtain ⟨oid, ho⟩ := hp.ns
  have hk : ∀ k, '.' ∉ k → k ≠ t!"ns" → ∃ b, m.hasKey .openid k = .ok b := by
    intro k a b
    exact ⟨_, by rw [Msg.hasKey, Msg.fixNS, ho]; rfl⟩
  have hpres : ∀ l : List Str, (∀ f ∈ l, '.' ∉ f ∧ f ≠ t!"ns") → ∀ e, checkPresent m l = .error e → e = .protocolError := by
    intro l
    induction l with
    | nil => intro _ e h; simp [checkPresent] at h
    | cons f r ih =>
      intro hl e h
      rw [checkPresent] at h
      obtain ⟨b, hb⟩ := hk f (hl f (by simp)).1 (hl f (by simp)).2
      rw [hb, ok_bind] at h
      split at h
      · exact ih (fun g hg => hl g (by simp [hg])) e h
      · simpa using h.symm
  have hsig : ∀ sg (l : List Str), (∀ f ∈ l, '.' ∉ f ∧ f ≠ t!"ns") → ∀ e, checkSigned m sg l = .error e → e = .protocolError := by
    intro sg l
    induction l with
    | nil => intro _ e h; simp [checkSigned] at h
    | cons f r ih =>
      intro hl e h
      rw [checkSigned] at h
      obtain ⟨b, hb⟩ := hk f (hl f (by simp)).1 (hl f (by simp)).2
      rw [hb, ok_bind] at h
      split at h
      · simpa using h.symm
      · exact ih (fun g hg => hl g (by simp [hg])) e h
  rw [idResCheckForFields, ho] at h
  simp only [Option.getD_some] at h
  rcases bind_eq_error.1 h with h | ⟨l1, h1, h⟩
  · right
    rw [requiredFields] at h
    split at h
    · cases h
    · next n2 =>
      split at h
      · cases h
      · next n1 =>
        simp only [Except.error.injEq] at h
        have : oid = t!"http://openid.net/signon/1.1" := by
          have := hver oid ho
          simp only [versions, List.mem_cons, List.not_mem_nil, or_false] at this
          rcases this with h | h | h
          · exact absurd h n1
          · exact h
          · exact absurd h n2
        refine ⟨h.symm, ?_⟩
        cases hq : q.get? t!"openid.ns" with
        | none => rw [hnone hq] at ho; simp only [Option.some.injEq] at ho; exact absurd ho.symm n1
        | some v =>
          rw [hpost v hq, this] at ho
          simp only [Option.some.injEq] at ho
          rw [← ho]; exact hq
  · have hl1 : ∀ f ∈ l1, '.' ∉ f ∧ f ≠ t!"ns" := by
      rw [requiredFields] at h1
      split at h1
      · simp only [Except.ok.injEq] at h1; subst h1; decide
      · split at h1
        · simp only [Except.ok.injEq] at h1; subst h1; decide
        · cases h1
    rcases bind_eq_error.1 h with h | ⟨⟨⟩, h2, h⟩
    · exact .inl (hpres l1 hl1 _ h)
    · rcases bind_eq_error.1 h with h | ⟨sg, h3, h⟩
      · exfalso
        obtain ⟨v, hv⟩ := checkPresent_ok.1 h2 t!"signed" (by
          rw [requiredFields] at h1
          split at h1
          · simp only [Except.ok.injEq] at h1; subst h1; decide
          · split at h1
            · simp only [Except.ok.injEq] at h1; subst h1; decide
            · cases h1)
        have : m.getArgReq .openid t!"signed" = .ok v := by
          rw [getArgReq_ok, hv]
        rw [this] at h; cases h
      · rcases bind_eq_error.1 h with h | ⟨l2, h4, h⟩
        · exfalso
          rw [requiredSigs] at h; rw [requiredFields] at h1
          split at h
          · cases h
          · split at h
            · cases h
            · simp_all
        · refine .inl (hsig _ l2 ?_ _ h)
          rw [requiredSigs] at h4
          split at h4
          · simp only [Except.ok.injEq] at h4; subst h4; decide
          · split at h4
            · simp only [Except.ok.injEq] at h4; subst h4; decide
            · cases h4

/-! ## The signature -/

theorem getAliasedArg_total {m : Msg} {oid : Str} (ho : m.getOpenIDNamespace = some oid) (k : Str) :
    ∃ v, m.getAliasedArg k = .ok v := by
  have hu : ∀ u k, ∃ v, m.getArg (.uri u) k = .ok v := fun u k => by
    rw [Msg.getArg, Msg.fixNS]; split <;> exact ⟨_, rfl⟩
  rw [Msg.getAliasedArg, ho]
  split
  · exact ⟨_, rfl⟩
  · split
    · exact ⟨_, rfl⟩
    · simp only
      split
      · exact hu _ _
      · split
        · exact hu _ _
        · exact hu _ _

theorem signedPresent_total {m : Msg} {oid : Str} (ho : m.getOpenIDNamespace = some oid) (l : List Str) :
    ∃ b, signedPresent m l = .ok b := by
  induction l with
  | nil => exact ⟨_, rfl⟩
  | cons k r ih =>
    rw [signedPresent]
    obtain ⟨v, hv⟩ := getAliasedArg_total ho k
    rw [hv, ok_bind]
    cases v with
    | none => exact ⟨_, rfl⟩
    | some _ => exact ih

theorem checkAuth_error {W : World} {C : Conf} {m : Msg} {q : Dict Str Str} (hp : Parsed m q)
    (hset : ∃ r, m.setArg .openid t!"mode" t!"check_authentication" = .ok r) {url : Str} {evs : List Ev} {x : Err}
    (h : Runs (checkAuth W C m url) evs (.error x)) : ∃ e, x = .py e ∧ Outside W.reg evs e := by
  obtain ⟨oid, ho⟩ := hp.ns
  rw [checkAuth] at h
  rcases (runs_py_bind _ _ _ _).1 h with ⟨r, h1, h2⟩ | ⟨e, h1, -⟩
  rotate_left
  · exfalso
    rw [createCheckAuthRequest, hp.get _ (by decide) (by decide), ok_bind] at h1
    obtain ⟨b, hb⟩ := signedPresent_total ho (signedNames (arg q t!"signed"))
    obtain ⟨r, hr⟩ := hset
    rw [hb, ok_bind, hr] at h1
    cases b <;> simp at h1
  cases r with
  | none => simp [postCheckAuth] at h2
  | some ask =>
    simp only [postCheckAuth] at h2
    rw [runs_handle] at h2
    obtain ⟨e1, e2, o, rfl, g1, g2⟩ := h2
    obtain ⟨o', rfl, g3⟩ := runs_makeKVPost.1 g1
    rcases g3 with ⟨r, rfl, g3⟩ | ⟨e, rfl, rfl⟩
    · subst g3
      cases hr : httpResponseToMessage W r with
      | error y =>
        rw [hr] at g2
        rcases http_error hr with rfl | ⟨c, m', rfl, -⟩ | ⟨e, rfl, hb⟩
        · simp at g2
        · simp at g2
        · split at g2
          · simp_all
          · simp at g2
          · simp at g2
          · next hz =>
            simp only [Except.error.injEq] at hz
            simp only [runs_raise, Except.error.injEq] at g2
            exact ⟨e, by rw [← g2.2, ← hz], .reply url _ r e (.head _) hb⟩
      | ok response =>
        rw [hr] at g2
        obtain ⟨-, text, d, -, -, hw, h4⟩ := http_ok hr
        have hget := (fromOpenIDArgs_has hw h4).2
        simp only [processCheckAuthResponse] at g2
        rcases (runs_py_bind _ _ _ _).1 g2 with ⟨valid, f1, g2⟩ | ⟨e, f1, -⟩
        rotate_left
        · rw [hget _ (by decide) (by decide)] at f1; cases f1
        rcases (runs_py_bind _ _ _ _).1 g2 with ⟨inv, f2, g2⟩ | ⟨e, f1, -⟩
        rotate_left
        · rw [hget _ (by decide) (by decide)] at f1; cases f1
        rcases (runs_bind _ _ _ _).1 g2 with ⟨_, _, _, -, -, k⟩ | ⟨y, hy, k⟩
        · simp at k
        · cases hy
          cases inv with
          | none => simp [invalidate] at k
          | some hd =>
            rw [invalidate] at k
            split at k
            · obtain ⟨e, he, ho'⟩ := dropAssoc_error k
              exact ⟨e, he, ho'.mono (by simp_all)⟩
            · simp at k
    · split at g2
      · simp_all
      · simp at g2
      · simp at g2
      · next hne _ hz =>
        simp only [Except.error.injEq] at hz
        simp only [runs_raise, Except.error.injEq] at g2
        refine ⟨e, by rw [← g2.2, ← hz], .fetch url _ e (.head _) ?_⟩
        rintro rfl
        exact hne hz.symm

theorem sign_error {H : Mac} {a : Assoc} {m : Msg} {q : Dict Str Str} (hp : Parsed m q)
    {s l : Str} (hsig : arg q t!"sig" = some s) (hsigned : arg q t!"signed" = some l) (hl : l ≠ [])
    {e : PyErr} (h : a.checkMessageSignature H m = .error e) :
    Uncheckable a q e ∨ ∃ f v, e = .kvFormError ∧ f ∈ splitOn ',' l ∧ m.toPostArgs.get? (t!"openid." ++ f) = some v ∧ '\n' ∈ v := by
  rw [Assoc.checkMessageSignature, hp.get _ (by decide) (by decide), hsig, ok_bind] at h
  cases s with
  | nil => simp at h; subst h; exact .inl (.empty hsig)
  | cons c r =>
    simp only at h
    rcases bind_eq_error.1 h with h | ⟨_, -, h⟩
    rotate_left
    · simp at h
    rw [Assoc.getMessageSignature] at h
    rcases bind_eq_error.1 h with h | ⟨ps, h1, h⟩
    · exfalso
      rw [makePairs, hp.get _ (by decide) (by decide), hsigned, ok_bind] at h
      cases l with
      | nil => exact hl rfl
      | cons => simp at h
    · rw [makePairs, hp.get _ (by decide) (by decide), hsigned, ok_bind] at h1
      cases l with
      | nil => exact absurd rfl hl
      | cons c' r' =>
        simp only [pure_eq_ok, Except.ok.injEq] at h1; subst h1
        rcases bind_eq_error.1 h with h | ⟨_, -, h⟩
        rotate_left
        · simp at h
        rw [Assoc.sign] at h
        rcases bind_eq_error.1 h with h | ⟨_, -, h⟩
        · have := KVForm.seqToKV_error h
          subst this
          have hn : ¬ ∃ out, KVForm.seqToKV false (pairsOf m.toPostArgs (c' :: r')) = .ok out := by
            rw [h]; rintro ⟨_, h⟩; cases h
          rw [KVForm.seqToKV_ok_iff] at hn
          simp only [pairsOf, List.mem_map, forall_exists_index, and_imp, forall_apply_eq_imp_iff₂, Bool.false_eq_true,
            false_implies, and_true] at hn
          by_cases hx : ∃ f ∈ splitOn ',' (c' :: r'), ':' ∈ f ∨ '\n' ∈ f
          · obtain ⟨f, h1, h2⟩ := hx
            exact .inl (.name _ f hsigned h1 h2)
          · right
            apply Classical.byContradiction
            intro hc
            apply hn
            intro f hf
            refine ⟨fun h => hx ⟨f, hf, .inr h⟩, fun h => hx ⟨f, hf, .inl h⟩, fun h => ?_⟩
            cases hv : m.toPostArgs.get? (t!"openid." ++ f) with
            | none => rw [hv] at h; simp at h
            | some v => rw [hv] at h; exact hc ⟨f, v, rfl, hf, hv, h⟩
        · split at h
          · simp at h
          · next ht =>
            simp at h; subst h
            simp [allAssociationTypes] at ht
            exact .inl (.type ht.2 ht.1)

theorem signature_error {W : World} {C : Conf} {E : Env} {m : Msg} {q : Dict Str Str} {url : Str} {evs : List Ev}
    {x : Err} {current : Str} {session : Option Endpoint} (hq : Dict.WF q) (hg : Got W.reg m q)
    (hm : fromPostArgs W.reg q = .ok m)
    (hreg : ∀ a u, W.reg.get? a = some u → u ≠ t!"sreg") (hmode : arg q t!"mode" = some t!"id_res")
    {handle s l : Str} (hh : arg q t!"assoc_handle" = some handle) (hsig : arg q t!"sig" = some s)
    (hsigned : arg q t!"signed" = some l) (hl : l ≠ [])
    (h : Runs (idResCheckSignature W C E m url) evs (.error x)) :
    ∃ e, x = .py e ∧ (Caught e ∨ Unfinished W session q current evs e) := by
  have hp := hg.toParsed
  rw [idResCheckSignature] at h
  rcases (runs_py_bind _ _ _ _).1 h with ⟨hd, h1, h⟩ | ⟨e, h1, -⟩
  rotate_left
  · rw [hp.get _ (by decide) (by decide)] at h1; cases h1
  rw [hp.get _ (by decide) (by decide), hh] at h1
  simp only [Except.ok.injEq] at h1; subst h1
  rcases (runs_bind _ _ _ _).1 h with ⟨e1, e2, a, rfl, k1, k2⟩ | ⟨y, hy, k⟩
  · cases a with
    | none =>
      simp only at k2
      rcases (runs_bind _ _ _ _).1 k2 with ⟨_, _, b, -, -, k⟩ | ⟨y, hy, k⟩
      · cases b <;> simp at k
        exact ⟨_, k.2.symm, .inl (.inl rfl)⟩
      · cases hy
        obtain ⟨e, he, ho⟩ := checkAuth_error hp (hset := by
          have h0 := (fromPostArgs_has hq hm).1
          have hns : m.getOpenIDNamespace = some _ := h0.ns
          have hne := h0.inv.oid _ hns
          have hne : (q.get? t!"openid.ns").getD OPENID1_NS ≠ t!"sreg" := fun e => by rw [e] at hne; revert hne; decide
          have := h0.can ((q.get? t!"openid.ns").getD OPENID1_NS) t!"mode" t!"check_authentication"
          rw [Msg.setArg, Msg.fixNS, if_neg hne] at this
          rw [Msg.setArg, Msg.fixNS, hns]
          exact this) k
        exact ⟨e, he, .inr (.outside e hmode (ho.mono (by simp_all)))⟩
    | some a =>
      simp only at k2
      split at k2
      · simp at k2; exact ⟨_, k2.2.symm, .inl (.inl rfl)⟩
      · rcases (runs_py_bind _ _ _ _).1 k2 with ⟨b, -, k⟩ | ⟨e, k3, k4, -⟩
        · cases b <;> simp at k
          exact ⟨_, k.2.symm, .inl (.inl rfl)⟩
        · cases k4
          refine ⟨e, rfl, .inr ?_⟩
          have hev : Ev.store (.getAssociation url (some handle)) (.ok (.assoc (some a))) ∈ e1 := by
            rw [storedAssoc] at k1
            split at k1
            · rw [runs_fetchAssoc_ok] at k1
              simp [k1]
            · simp at k1
          rcases sign_error hp hsig hsigned hl k3 with hu | ⟨f, v, rfl, hf, hv, hn⟩
          · exact .signature url handle a e hmode hh (by simp [hev]) hu
          · by_cases hlit : ∃ alias, q.get? (t!"openid.ns." ++ alias) = some t!"sreg"
            · obtain ⟨alias, hlt⟩ := hlit
              exact .literal alias _ hmode hlt (by simp)
            · obtain ⟨-, hs⟩ := Props.c07_roundtrip W.reg q hq hreg (fun a u hu he => hlit ⟨a, by rw [hu, he]⟩) m hm
              exact .signature url handle a _ hmode hh (by simp [hev]) (.value l f v hsigned hf ((hs _).symm.trans hv) hn)
  · cases hy
    rw [storedAssoc] at k
    split at k
    · obtain ⟨e, he, ho⟩ := fetchAssoc_error k
      exact ⟨e, he, .inr (.outside e hmode ho)⟩
    · simp at k

/-! ## The nonce -/

theorem nonce_error {W : World} {C : Conf} {m : Msg} {q : Dict Str Str} (hg : Got W.reg m q) {e : Endpoint} {evs : List Ev}
    {x : Err} (h : Runs (idResCheckNonce W C m e) evs (.error x)) :
    ∃ e, x = .py e ∧ (Caught e ∨ Outside W.reg evs e) := by
  rw [idResCheckNonce] at h
  rcases (runs_py_bind _ _ _ _).1 h with ⟨⟨n, url⟩, -, h⟩ | ⟨e', h1, -⟩
  rotate_left
  · exfalso
    rw [nonceOf] at h1
    split at h1
    · rw [hg.bare _ (by decide)] at h1; cases h1
    · simp [Msg.getArg, Msg.fixNS, show OPENID2_NS ≠ t!"sreg" by decide] at h1
  cases n with
  | none => simp at h; exact ⟨_, h.2.symm, .inl (.inl rfl)⟩
  | some n =>
    simp only at h
    rcases (runs_py_bind _ _ _ _).1 h with ⟨⟨t, salt⟩, -, h⟩ | ⟨e', h1, h2, -⟩
    · simp only at h
      rcases (runs_bind _ _ _ _).1 h with ⟨_, _, b, -, -, k⟩ | ⟨y, hy, k⟩
      · cases b <;> simp at k
        exact ⟨_, k.2.symm, .inl (.inl rfl)⟩
      · cases hy
        rw [nonceFresh] at k
        split at k
        · obtain ⟨e, he, ho⟩ := useNonce_error k
          exact ⟨e, he, .inr ho⟩
        · simp at k
    · cases h2
      refine ⟨e', rfl, .inl ?_⟩
      cases hs : Nonce.split W.digits n with
      | ok r => rw [hs] at h1; simp [asProtocolError] at h1
      | error e2 =>
        rw [hs, Nonce.split_error _ _ _ hs] at h1
        simp [asProtocolError, PyErr.isValueError] at h1
        exact .inl h1.symm

/-! ## The whole -/

theorem _root_.Spec.Unfinished.mono {W : World} {session : Option Endpoint} {q : Dict Str Str} {current : Str}
    {evs evs' : List Ev} {e : PyErr} (h : Unfinished W session q current evs e) (hs : ∀ x ∈ evs, x ∈ evs') :
    Unfinished W session q current evs' e := by
  cases h with
  | version u h1 h2 => exact .version u h1 h2
  | names _ h1 => exact .names _ h1
  | literal a _ h1 h2 h3 => exact .literal a _ h1 h2 h3
  | between h1 h2 => exact .between h1 h2
  | url u h1 h2 h3 => exact .url u h1 h2 h3
  | claimed c h1 h2 h3 => exact .claimed c h1 h2 h3
  | nobody _ h1 h2 h3 h4 => exact .nobody _ h1 h2 h3 h4
  | outside _ h1 h2 => exact .outside _ h1 (h2.mono hs)
  | signature u hd a _ h1 h2 h3 h4 => exact .signature u hd a _ h1 h2 (hs _ h3) h4

theorem doIdRes_error {W : World} {C : Conf} {E : Env} {m : Msg} {q : Dict Str Str} {session : Option Endpoint}
    {evs : List Ev} {x : Err} {current : Str} (hq : Dict.WF q) (hm : fromPostArgs W.reg q = .ok m)
    (hreg : ∀ a u, W.reg.get? a = some u → u ≠ t!"sreg") (hmode : arg q t!"mode" = some t!"id_res")
    (h : Runs (doIdRes W C E m session current) evs (.error x)) :
    ∃ e, x = .py e ∧ (Caught e ∨ Unfinished W session q current evs e) := by
  have hg := got hq hm
  have hp := hg.toParsed
  have h0 := (fromPostArgs_has hq hm).1
  have hns : m.getOpenIDNamespace = some _ := h0.ns
  rw [doIdRes] at h
  rcases (runs_py_bind _ _ _ _).1 h with ⟨⟨⟩, f1, h⟩ | ⟨e, h1, h2, -⟩
  rotate_left
  · cases h2
    refine ⟨e, rfl, ?_⟩
    rcases fields_error hp (by intro v hv; rw [hns, hv]; rfl) (by intro hv; rw [hns, hv]; rfl)
      (fun v hv => h0.inv.oid v hv) h1 with rfl | ⟨rfl, h3⟩
    · exact .inl (.inl rfl)
    · exact .inr (.between hmode h3)
  obtain ⟨hv, hf, l, hl1, hl2⟩ := fields_ok hp f1
  have hrt : ∃ rt, arg q t!"return_to" = some rt := hf _ (by unfold neededFields; split <;> simp)
  have hsig : ∃ rt, arg q t!"sig" = some rt := hf _ (by unfold neededFields; split <;> simp)
  have hah : ∃ rt, arg q t!"assoc_handle" = some rt := hf _ (by unfold neededFields; split <;> simp)
  obtain ⟨rt, hrt⟩ := hrt
  obtain ⟨sg, hsig⟩ := hsig
  obtain ⟨ah, hah⟩ := hah
  have hl : l ≠ [] := by
    rintro rfl
    have := hl2 t!"return_to" (by unfold neededSigned; split <;> simp) rt hrt
    revert this; decide
  rcases (runs_py_bind _ _ _ _).1 h with ⟨⟨⟩, -, h⟩ | ⟨e, h1, h2, -⟩
  rotate_left
  · cases h2
    exact ⟨e, rfl, returnTo_error hq hg hm hreg hmode hrt h1 session evs⟩
  rcases (runs_bind _ _ _ _).1 h with ⟨e1, e2, d, he, -, h⟩ | ⟨y, hy, h⟩
  rotate_left
  · cases hy
    exact discovery_error hg hv hmode hf h
  rcases (runs_bind _ _ _ _).1 h with ⟨e3, e4, d', he', -, h⟩ | ⟨y, hy, h⟩
  rotate_left
  · cases hy
    obtain ⟨e, hx, hc⟩ := signature_error (current := current) (session := session) hq hg hm hreg hmode hah hsig hl1 hl h
    exact ⟨e, hx, hc.imp_right (·.mono (by simp_all))⟩
  rcases (runs_bind _ _ _ _).1 h with ⟨e5, e6, d'', he'', -, h⟩ | ⟨y, hy, h⟩
  rotate_left
  · cases hy
    obtain ⟨e, hx, hc⟩ := nonce_error hg h
    exact ⟨e, hx, hc.imp_right fun o => .outside e hmode (o.mono (by simp_all))⟩
  rcases (runs_py_bind _ _ _ _).1 h with ⟨s, -, h⟩ | ⟨e, h1, -⟩
  · simp at h
  · have : m.getArgReq .openid t!"signed" = .ok l := by
      rw [getArgReq_ok, hp.get _ (by decide) (by decide), hl1]
    rw [this] at h1; cases h1

theorem generic_error {W : World} {C : Conf} {E : Env} {m : Msg} {q : Dict Str Str} {session : Option Endpoint}
    {evs : List Ev} {x : Err} {current : Str} (hq : Dict.WF q) (hm : fromPostArgs W.reg q = .ok m)
    (hreg : ∀ a u, W.reg.get? a = some u → u ≠ t!"sreg")
    (h : Runs (genericComplete W C E m session current) evs (.error x)) :
    ∃ e, x = .py e ∧ ¬ Caught e ∧ Unfinished W session q current evs e := by
  have hg := got hq hm
  have hp := hg.toParsed
  rw [genericComplete] at h
  rcases (runs_py_bind _ _ _ _).1 h with ⟨mode, f1, h⟩ | ⟨e, h1, -⟩
  rotate_left
  · rw [hp.get _ (by decide) (by decide)] at h1; cases h1
  rw [hp.get _ (by decide) (by decide)] at f1
  simp only [Except.ok.injEq] at f1
  split at h
  · simp at h
  · split at h
    · simp [completeError, hp.get] at h
      simp [lift] at h
    · split at h
      · rw [completeSetupNeeded] at h
        split at h
        · simp [Msg.getArg, Msg.fixNS, show OPENID2_NS ≠ t!"sreg" by decide, lift] at h
        · simp [lift] at h
      · split at h
        · next hid =>
          rw [hid] at f1
          rw [completeIdRes] at h
          rcases (runs_py_bind _ _ _ _).1 h with ⟨url, f2, h⟩ | ⟨e, h1, -⟩
          rotate_left
          · rw [setupNeeded] at h1
            split at h1
            · simp [Msg.getArg, Msg.fixNS, show OPENID1_NS ≠ t!"sreg" by decide] at h1
            · simp at h1
          cases url with
          | some u => simp at h
          | none =>
            simp only at h
            rw [runs_handle] at h
            obtain ⟨e1, e2, o, rfl, k1, k2⟩ := h
            obtain ⟨rfl, k3⟩ := (runs_done _ _ _).1 k2
            cases o with
            | ok r => simp [asFailure] at k3
            | error y =>
              obtain ⟨e, rfl, hc⟩ := doIdRes_error hq hm hreg f1 k1
              rw [asFailure] at k3
              split at k3
              · cases k3
              · next hne =>
                simp only [Except.error.injEq] at k3
                have hnc : ¬ Caught e := by
                  rintro (rfl | rfl | rfl) <;> simp [isProtocolError] at hne
                exact ⟨e, k3.symm, hnc, (hc.resolve_left hnc).mono (by simp)⟩
        · simp at h

end Consumer
