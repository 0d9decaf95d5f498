import Verif.Lemmas.SqlLogin
import Verif.Props.SqlStore
import Verif.Props.LoginExt
/-! # C74: logins with the SQL store -/

namespace Props
open Py Message Association Cryptutil Store Discover Consumer Spec DH Extend SqlStore

/-- **C74** The SQL store over SQLite or PostgreSQL, with a database that does not fail, keeps what a relying party needs. It
    can say which of a server's associations is the latest unless two of them were issued in the same second. -/
theorem c74_sql_store (D : Driver) (c : Clock) (hD : D.backend ≠ .mysql) :
    Keeps c (soundStep D c) soundView (fun s u t x => (u, t, x) ∈ s.1.nonces) Ranked ∧ NeverFails (soundStep D c) := by
  refine ⟨⟨sound_faithful D c, fun s now url hr => ⟨?_, ?_⟩, fun s now url r a hr hx ha => ?_, fun s e url hne hr => ?_,
    fun s now url t salt hw hn => ?_, fun s e url t salt h => ?_⟩, sound_never D c hD⟩
  · rw [soundView_step]
    cases (soundStep D c s (now, .getAssociation url none)).2 with
    | error e => exact fun _ _ => .inl rfl
    | ok r =>
      intro u h
      simp only [tableStep]
      split
      · rcases filter_cases (soundView s u h) (fun a => ¬ expired (c.seconds now) a) with h | ⟨h, a, ha, hx⟩
        · exact .inl h
        · exact .inr ⟨h, a, ha, Classical.not_not.1 hx⟩
      · exact .inl rfl
  · obtain ⟨rows, h1, h2⟩ := get_step c s now url none
    obtain ⟨r, hl⟩ := latest_same (rows := rows) (fun a ha b hb hi => by
      obtain ⟨k1, -, hv1, -⟩ := (h1 a).1 ha
      obtain ⟨k2, -, hv2, -⟩ := (h1 b).1 hb
      exact hr _ _ _ _ hv1 hv2 hi)
    refine ⟨r, by rw [h2, hl]; rfl, fun a ha => ?_⟩
    obtain ⟨k, -, hv, -⟩ := (h1 a).1 ((latest_ok rows r hl).2 a ha).1
    exact ⟨k, hv⟩
  · have hnone : ∀ h, soundView (soundStep D c s (now, .getAssociation url none)).1 url h = none := by
      intro h
      obtain ⟨rows, h1, h2⟩ := get_step c s now url none
      have hl : latest rows = .ok r := by
        rw [h2] at hr
        cases hl : latest rows with
        | error e => rw [hl] at hr; cases hr
        | ok x => rw [hl] at hr; cases hr; rfl
      have hrn : r = none := by
        cases r with
        | none => rfl
        | some b =>
          obtain ⟨k, -, -, hb⟩ := (h1 b).1 ((latest_ok rows _ hl).2 b rfl).1
          exact absurd (hx b rfl) hb
      have hrows := (latest_ok rows _ hl).1.1 hrn
      rw [soundView_step, hr]
      simp only [tableStep, true_and, true_or, if_true]
      rw [Option.filter_eq_none_iff]
      intro a ha hax
      have : a ∈ rows := (h1 a).2 ⟨h, .inl rfl, ha, by simpa using hax⟩
      rw [hrows] at this; cases this
    generalize (soundStep D c s (now, .getAssociation url none)).1 = s1 at hnone
    intro h1 h2 a1 a2 hv1 hv2 _
    rw [soundView_step] at hv1 hv2
    cases hput : (soundStep D c s1 (now, .storeAssociation url a)).2 with
    | error e =>
      rw [hput] at hv1
      have hv1 : soundView s1 url h1 = some a1 := hv1
      rw [hnone] at hv1; cases hv1
    | ok x =>
      rw [hput] at hv1 hv2
      simp only [tableStep, true_and, hnone] at hv1 hv2
      split at hv1
      · split at hv2
        · cases hv1; cases hv2; rfl
        · cases hv2
      · cases hv1
  · intro h1 h2 a1 a2 hv1 hv2 hi
    rw [soundView_step] at hv1 hv2
    exact hr h1 h2 a1 a2 (tableStep_sub hne hv1) (tableStep_sub hne hv2) hi
  · rw [(soundStep_eq c s now _ (by intro u a h; cases h)).1]
    have ho : outside c now t = false := by
      rw [← Bool.not_eq_true, outside_iff]; exact fun h => h hw
    have hany : s.1.nonces.any (sameNonce D.backend (url, t, salt)) = false := by
      rw [List.any_eq_false]
      rintro ⟨u', t', x'⟩ hk hs
      simp only [sameNonce, Bool.and_eq_true, beq_iff_eq, Prod.mk.injEq] at hs
      obtain ⟨hk1, rfl, rfl⟩ := hs
      have := urlKey_inj D.backend url u' (.inl hD) (.inl hD) hk1
      subst this
      exact hn hk
    refine step_of_txn (cur := ⟨{ s.1 with nonces := s.1.nonces ++ [(url, t, salt)] }, 1, 1⟩) ?_
    simp [txn, bind_def, txnUseNonce, ho, Txn.except, execute, noFault, insertNonce, hany, pure_def]
  · obtain ⟨now, op⟩ := e
    by_cases hp : Permitted D op
    · rw [(soundStep_eq c s now op hp).2] at h
      rcases step_nonces D c s.1 ⟨now, op, noFault, none⟩ with ⟨u, t', x, hop, -, -, -, hn⟩ | ⟨-, hn | hn⟩
      · rw [hn] at h
        rcases List.mem_append.1 h with h | h
        · exact .inl h
        · cases List.mem_singleton.1 h; exact .inr hop
      · rw [hn] at h; exact .inl h
      · rw [hn] at h; exact .inl (List.mem_filter.1 h).1
    · simp only [soundStep, keptStep, dif_neg hp] at h
      exact .inl h

/-- **C74** What happens otherwise.  Two logins with the same provider that begin in the same second both find no association
    and both make one; from then on, until one of the two expires, no login with that provider can begin: `begin` raises
    `TypeError` and leaves everything as it is. -/
theorem c74_tie_raises (D : Driver) {W : Consumer.World} {C : Conf} (hC : C.hasStore = true) {τ : Type}
    (serve : τ → Str → Str → τ × Except PyErr Http) {disc : Str → Except PyErr (Str × List Endpoint)} {typed name : Str}
    {e : Endpoint} {more : List Endpoint} (hd : disc typed = .ok (name, e :: more)) (anonymous : Bool)
    (token : Option Endpoint) (E : Consumer.Env) (s : Sound D) (t : τ) {a1 a2 : Assoc}
    (h1 : soundView s e.serverUrl a1.handle = some a1) (h2 : soundView s e.serverUrl a2.handle = some a2)
    (hne : a1.handle ≠ a2.handle) (hi : a1.issued = a2.issued) (hx1 : ¬ expired (E.seconds W) a1)
    (hx2 : ¬ expired (E.seconds W) a2) :
    ∃ s1, live (soundStep D W.clock) E.now serve disc (begin W C E ⟨token, none⟩ typed anonymous) s t =
      ((s, t), .ok (s1, .error (.py .typeError))) := by
  obtain ⟨rows, hr, hx⟩ := get_step W.clock s E.now e.serverUrl none
  have hl : latest rows = .error .typeError :=
    (latest_error rows _).2 ⟨rfl, a1, (hr a1).2 ⟨_, .inl rfl, h1, hx1⟩, a2, (hr a2).2 ⟨_, .inl rfl, h2, hx2⟩,
      fun h => hne (by rw [h]), hi⟩
  rw [hl] at hx
  have hx : (soundStep D W.clock s (E.now, .getAssociation e.serverUrl none)).2 = .error .typeError := hx
  have hsame : (soundStep D W.clock s (E.now, .getAssociation e.serverUrl none)).1 = s := by
    have hp : Permitted D (.getAssociation e.serverUrl none) := by intro u a h; cases h
    obtain ⟨g1, g2⟩ := soundStep_eq W.clock s E.now (.getAssociation e.serverUrl none) hp
    refine Subtype.ext (g2.trans ?_)
    rw [g1] at hx
    unfold step at hx ⊢
    generalize hc : call D W.clock ⟨s.1, s.1⟩ ⟨E.now, .getAssociation e.serverUrl none, noFault, none⟩ = q at hx
    obtain ⟨o, conn⟩ := q
    simp only at hx
    subst hx
    exact (call_error hc).1
  have herr : ∀ {α β : Type} {p : Consumer.Prog α} (f : α → Consumer.Prog β) {x : Consumer.Err},
      live (soundStep D W.clock) E.now serve disc p s t = ((s, t), .error x) →
      live (soundStep D W.clock) E.now serve disc (p >>= f) s t = ((s, t), .error x) := by
    intro α β p f x h
    rw [show (p >>= f) = p.handle _ from rfl, live_handle, h]
    rfl
  have hfetch : live (soundStep D W.clock) E.now serve disc (fetchAssoc e.serverUrl none) s t =
      ((s, t), .error (.py .typeError)) := by
    rw [fetchAssoc]
    simp only [live]
    rw [hx, hsame]
    rfl
  have hget : live (soundStep D W.clock) E.now serve disc (associationFor W C E e) s t = ((s, t), .error (.py .typeError)) := by
    rw [associationFor, if_pos hC, Consumer.getAssociation]
    exact herr _ hfetch
  have hgen : live (soundStep D W.clock) E.now serve disc (genericBegin W C E e) s t = ((s, t), .error (.py .typeError)) := by
    rw [genericBegin]
    exact herr _ hget
  have hnext : live (soundStep D W.clock) E.now serve disc (Consumer.getNextService ⟨token, none⟩ typed) s t =
      ((s, t), .ok (⟨token, some ⟨typed, name, more, some e⟩⟩, .ok (some e))) := by
    simp only [Consumer.getNextService, Manager.beforeDiscovery, Manager.getManager]
    rw [live_handle]
    have : live (soundStep D W.clock) E.now serve disc (runDiscover typed) s t = ((s, t), .ok (name, e :: more)) := by
      simp only [runDiscover, live, hd]; rfl
    rw [this]
    rfl
  refine ⟨⟨token, some ⟨typed, name, more, some e⟩⟩, ?_⟩
  rw [begin, live_bind hnext, beginWith, beginWithoutDiscovery, live_handle, hgen]
  rfl

/-- two associations made in the same second -/
def tied0 : Sound sqlite0 :=
  ⟨⟨[(endpoint0.serverUrl, ⟨t!"h1", [1], 5, 1209600, t!"HMAC-SHA1"⟩),
     (endpoint0.serverUrl, ⟨t!"h2", [2], 5, 1209600, t!"HMAC-SHA1"⟩)], []⟩,
   ⟨by simp [Uniq], fun _ _ => .inl (by decide), by decide⟩⟩

-- A database with two such associations, which two clients that had both looked first may store one after the other.
example : (run sqlite0 clock0 Db.empty [quiet 5000 (.getAssociation endpoint0.serverUrl none),
    quiet 5000 (.getAssociation endpoint0.serverUrl none),
    quiet 5100 (.storeAssociation endpoint0.serverUrl ⟨t!"h1", [1], 5, 1209600, t!"HMAC-SHA1"⟩),
    quiet 5200 (.storeAssociation endpoint0.serverUrl ⟨t!"h2", [2], 5, 1209600, t!"HMAC-SHA1"⟩)]).2 = tied0.1 := by
  decide

example : ∃ s1, live (soundStep sqlite0 pairConsumer0.clock) cenv0.now (fun (t : Unit) _ _ => (t, .error .fetchingError))
    (fun _ => .ok (t!"http://u.example/", [endpoint0])) (begin pairConsumer0 cconf0 cenv0 ⟨none, none⟩ t!"u.example" false)
    tied0 () = ((tied0, ()), .ok (s1, .error (.py .typeError))) :=
  c74_tie_raises sqlite0 (a1 := ⟨t!"h1", [1], 5, 1209600, t!"HMAC-SHA1"⟩) (a2 := ⟨t!"h2", [2], 5, 1209600, t!"HMAC-SHA1"⟩)
    rfl _ rfl _ _ _ _ _ (by decide) (by decide) (by decide) rfl (by decide) (by decide)

-- The two sides with empty databases, the relying party's in SQLite and the provider's in PostgreSQL: the login begins, and
-- so does the next one.
example : ∃ (sc1 : Sound sqlite0) (sp1 : Sound ⟨.postgres, false⟩) (s1 : UserSession) (req : AuthRequest),
    live (soundStep sqlite0 clock0) cenv0.now (webOf pairServer0 senv0 defaultAssociationOrder (fun _ _ => [])
      endpoint0.serverUrl (soundStep ⟨.postgres, false⟩ clock0) (fun _ => .error .fetchingError)
      (fun _ _ => .error .fetchingError)) (fun _ => .ok (t!"http://u.example/", [endpoint0]))
      (begin pairConsumer0 cconf0 cenv0 ⟨none, none⟩ t!"u.example" false) (soundInit _) (soundInit _) =
        ((sc1, sp1), .ok (s1, .ok req)) ∧ Ranked sc1 endpoint0.serverUrl := by
  obtain ⟨sc1, sp1, s1, req, h1, -, h2, -⟩ := c74_login (W := pairConsumer0) (V := pairServer0) (C := cconf0)
    (n := defaultAssociationOrder) (E0 := cenv0) (E1 := senv0) (text := fun _ _ => [])
    (pages := fun _ => .error .fetchingError) (elsewhere := fun _ _ => .error .fetchingError) (anonymous := false)
    rfl rfl (by intro t k x; simp [pairServer0, sworld0, smac0])
    (by intro alias uri h; simp [pairConsumer0, pairServer0, sworld0] at h)
    (by intro alias uri h; simp [pairServer0, sworld0] at h) (fun _ => can0) (c74_sql_store sqlite0 clock0 (by decide)).1
    (c74_sql_store sqlite0 clock0 (by decide)).2 (sound_faithful ⟨.postgres, false⟩ clock0)
    (c74_sql_store ⟨.postgres, false⟩ clock0 (by decide)).2 (disc := fun _ => .ok (t!"http://u.example/", [endpoint0]))
    (typed := t!"u.example") rfl askable0 (by simp) (by decide) none (soundInit _) (soundInit _)
    (by intro h a k; cases k) (by intro h1 h2 a1 a2 k; cases k)
  exact ⟨sc1, sp1, s1, req, h1, h2⟩

end Props
