import Verif.Spec.Session
import Verif.Props.Manager
import Verif.Props.ConsumerAssociate
/-! # C42 for the calls of an application: `begin` and `complete` -/

namespace Props
open Py Discover Consumer Spec

theorem runs_getNextService {s : UserSession} {url : Str} {evs : List Ev}
    {r : Except Err (UserSession × Except Err (Option Endpoint))} (h : Consumer.Runs (Consumer.getNextService s url) evs r) :
    ∃ d, evs = (if (Manager.getNextService s.manager url d).asked then [.discover url d] else []) ∧
      r = .ok ({ s with manager := (Manager.getNextService s.manager url d).session },
        lift (Manager.getNextService s.manager url d).result) := by
  unfold Consumer.getNextService at h
  cases hb : Manager.beforeDiscovery s.manager url with
  | some x =>
    obtain ⟨e, m⟩ := x
    rw [hb] at h
    obtain ⟨rfl, rfl⟩ := h
    refine ⟨.error .typeError, ?_⟩
    unfold Manager.getNextService
    rw [hb]
    exact ⟨rfl, rfl⟩
  | none =>
    rw [hb] at h
    simp only at h
    obtain ⟨e1, e2, o, rfl, h1, h2⟩ := (runs_handle _ _ _ _).1 h
    obtain ⟨d, rfl, rfl⟩ := runs_discover.1 h1
    refine ⟨d, ?_⟩
    unfold Manager.getNextService
    rw [hb]
    rcases d with e | ⟨y, svcs⟩
    · obtain ⟨rfl, rfl⟩ := h2
      exact ⟨rfl, rfl⟩
    · simp only [lift] at h2
      split at h2
      · next hh =>
        obtain ⟨rfl, rfl⟩ := h2
        simp only [hh]
        exact ⟨rfl, rfl⟩
      · next hh =>
        obtain ⟨rfl, rfl⟩ := h2
        simp only [hh]
        exact ⟨rfl, rfl⟩

theorem discoveries_begin {W : World} {C : Conf} {E : Consumer.Env} {s : UserSession} {e : Endpoint} {anonymous : Bool}
    {evs : List Ev} {r : Except Err (UserSession × Except Err AuthRequest)}
    (h : Consumer.Runs (beginWithoutDiscovery W C E s e anonymous) evs r) : discoveries evs = [] := by
  let P : Ev → Prop := fun ev => ∀ i o, ev ≠ .discover i o
  have hreq : ∀ p a t, Only P (requestAssociation W E p e a t) := by
    intro p a t
    refine only_bind (only_ofPy _) fun x => only_handle (only_post (fun _ => by simp [P]) fun o => ?_) fun o => ?_
    · split
      · exact only_done _
      · exact only_raise _
    · split
      · exact only_done _
      · exact only_done _
      · exact only_raise _
  have hneg : Only P (negotiateAssociation W C E e) := by
    unfold negotiateAssociation
    split
    · exact only_raise _
    · refine only_handle (hreq _ _ _) fun o => ?_
      split
      · refine only_bind (only_ofPy _) fun x => ?_
        unfold retryAssociation
        split
        · exact only_pure _
        · refine only_handle (hreq _ _ _) fun o => ?_
          split <;> exact only_done _
      · exact only_done _
  have hget : Only P (getAssociation W C E e) := by
    refine only_bind (only_store (fun _ => by simp [P]) fun o => ?_) fun a => ?_
    · split
      · exact only_pure _
      · exact only_raise _
      · exact only_raise _
    · split
      · exact only_pure _
      · refine only_bind hneg fun x => ?_
        split
        · refine only_bind (only_store (fun _ => by simp [P]) fun o => ?_) fun _ => only_pure _
          split
          · exact only_pure _
          · exact only_raise _
        · exact only_pure _
  have hall : Only P (beginWithoutDiscovery W C E s e anonymous) := by
    refine only_handle ?_ fun o => ?_
    · refine only_bind ?_ fun a => only_bind (only_ofPy _) fun _ => only_pure _
      unfold associationFor
      split
      · exact hget
      · exact only_pure _
    · split <;> exact only_pure _
  have := hall evs r h
  rw [discoveries, List.filterMap_eq_nil_iff]
  intro ev hev
  have := this ev hev
  cases ev with
  | discover i o => exact absurd rfl (this i o)
  | _ => rfl

theorem begin_session {W : World} {C : Conf} {E : Consumer.Env} {s : UserSession} {e : Endpoint} {anonymous : Bool}
    {evs : List Ev} {r : Except Err (UserSession × Except Err AuthRequest)}
    (h : Consumer.Runs (beginWithoutDiscovery W C E s e anonymous) evs r) :
    ∃ s' o, r = .ok (s', o) ∧ s'.manager = s.manager ∧ ∀ q, o = .ok q → q.endpoint = e := by
  rw [beginWithoutDiscovery, runs_handle] at h
  obtain ⟨e1, e2, o, rfl, h1, h2⟩ := h
  cases o with
  | error x => obtain ⟨-, rfl⟩ := h2; exact ⟨_, _, rfl, rfl, by simp⟩
  | ok q =>
    obtain ⟨-, rfl⟩ := h2
    refine ⟨_, _, rfl, rfl, ?_⟩
    intro q' hq
    have he : q.endpoint = e := by
      rw [genericBegin] at h1
      obtain ⟨x1, x2, a, -, -, h3⟩ := (runs_bind_ok _ _ _ _).1 h1
      obtain ⟨y, hy, -, h4⟩ := (runs_py_bind_ok _ _ _ _).1 h3
      simp only [Except.ok.injEq] at h4
      rw [AuthRequest.new] at hy
      obtain ⟨m, -, hy⟩ := (bind_eq_ok ..).1 hy
      simp at hy
      rw [← h4, ← hy]; rfl
    unfold anonymousOr AuthRequest.setAnonymous at hq
    split at hq
    · next hh =>
      split at hh
      · simp at hh
      · simp at hh hq
        rw [← hq, ← hh]; exact he
    · split at hq <;> simp at hq

/-- **C42** Whatever an application does in a session, the calls of `begin` and `complete` come down to a history of calls on
    the services kept there; so the theorems above hold of it. -/
theorem c42_session {W : World} {C : Conf} {s s' : UserSession} {visits : List Visit} (h : Visits W C s visits s') :
    ∃ calls : List (List (ServiceCall Endpoint)), visits.length = calls.length ∧ (∀ p ∈ visits.zip calls, Means p.1 p.2) ∧
      ServiceCalls s.manager calls.flatten s'.manager := by
  induction visits generalizing s with
  | nil => rw [Visits] at h; exact ⟨[], rfl, by simp, by rw [h]; rfl⟩
  | cons v rest ih =>
    have step : ∀ (c : List (ServiceCall Endpoint)) (s1 : UserSession), Means v c → ServiceCalls s.manager c s1.manager →
        Visits W C s1 rest s' → ∃ calls : List (List (ServiceCall Endpoint)), (v :: rest).length = calls.length ∧
          (∀ p ∈ (v :: rest).zip calls, Means p.1 p.2) ∧ ServiceCalls s.manager calls.flatten s'.manager := by
      intro c s1 h1 h2 h3
      obtain ⟨calls, k1, k2, k3⟩ := ih h3
      refine ⟨c :: calls, by simp [k1], ?_, ?_⟩
      · intro p hp
        rcases List.mem_cons.1 hp with rfl | hp
        · exact h1
        · exact k2 p hp
      · rw [List.flatten_cons, calls_append]
        exact ⟨_, h2, k3⟩
    cases v with
    | begin E url anonymous evs r =>
      obtain ⟨h1, s1, o, rfl, h3⟩ := h
      rw [Consumer.begin, runs_bind] at h1
      rcases h1 with ⟨e1, e2, ⟨s2, a⟩, rfl, g1, g2⟩ | ⟨x, hx, -⟩
      · obtain ⟨d, rfl, g3⟩ := runs_getNextService g1
        simp only [Except.ok.injEq, Prod.mk.injEq] at g3
        obtain ⟨rfl, rfl⟩ := g3
        generalize hn : Manager.getNextService s.manager url d = N at *
        refine step [.next url (if N.asked then some d else none) N.result] s1 ?_ ?_ h3
        · refine ⟨_, _, rfl, ?_⟩
          cases hr : N.result with
          | error x =>
            rw [hr] at g2
            obtain ⟨rfl, g2⟩ := g2
            simp only [Except.ok.injEq, Prod.mk.injEq] at g2
            obtain ⟨rfl, rfl⟩ := g2
            refine ⟨by cases N.asked <;> simp [discoveries], ?_, ?_⟩
            · intro s q h; simp at h
            · intro s o h _; simp at h; exact ⟨_, h.2.symm⟩
          | ok e =>
            rw [hr] at g2
            cases e with
            | none =>
              obtain ⟨rfl, g2⟩ := g2
              simp only [Except.ok.injEq, Prod.mk.injEq] at g2
              obtain ⟨rfl, rfl⟩ := g2
              refine ⟨by cases N.asked <;> simp [discoveries], ?_, ?_⟩
              · intro s q h; simp at h
              · intro s o h _; simp at h; exact ⟨_, h.2.symm⟩
            | some e =>
              simp only [lift, beginWith] at g2
              have hd := discoveries_begin g2
              obtain ⟨s3, o3, g4, g5, g6⟩ := begin_session g2
              refine ⟨?_, ?_, ?_⟩
              · rw [discoveries, List.filterMap_append]
                rw [discoveries] at hd
                rw [hd]
                cases N.asked <;> simp
              · intro s q h
                simp at g4 h
                rw [g6 q (by rw [← g4.2, h.2])]
              · intro s o h hh; exact absurd rfl (hh e)
        · refine ⟨d, by rw [hn], by rw [hn], ?_⟩
          rw [hn, ServiceCalls]
          cases hr : N.result with
          | error x => rw [hr] at g2; obtain ⟨rfl, g2⟩ := g2; simp at g2; rw [← g2.1]
          | ok e =>
            rw [hr] at g2
            cases e with
            | none => obtain ⟨rfl, g2⟩ := g2; simp at g2; rw [← g2.1]
            | some e =>
              obtain ⟨s3, o3, g4, g5, -⟩ := begin_session g2
              simp at g4
              rw [g4.1, g5]
      · simp at hx
    | complete E query current evs r =>
      obtain ⟨h1, s1, o, rfl, h3⟩ := h
      unfold Consumer.complete at h1
      cases hp : Message.fromPostArgs W.reg query with
      | error e =>
        rw [hp] at h1
        obtain ⟨-, h1⟩ := h1
        simp only [Except.ok.injEq, Prod.mk.injEq] at h1
        obtain ⟨rfl, rfl⟩ := h1
        exact step [] s ⟨_, _, rfl, rfl⟩ rfl h3
      | ok m =>
        rw [hp] at h1
        simp only [runs_handle] at h1
        obtain ⟨e1, e2, o', rfl, g1, g2⟩ := h1
        cases o' with
        | error x =>
          obtain ⟨-, h1⟩ := g2
          simp only [Except.ok.injEq, Prod.mk.injEq] at h1
          obtain ⟨rfl, rfl⟩ := h1
          exact step [] s ⟨_, _, rfl, rfl⟩ rfl h3
        | ok resp =>
          obtain ⟨-, h1⟩ := g2
          simp only [Except.ok.injEq, Prod.mk.injEq] at h1
          obtain ⟨rfl, rfl⟩ := h1
          cases resp with
          | success e m' sf =>
            cases hc : e.claimedId with
            | none => exact step [] _ ⟨_, _, rfl, by simp [Consumer.Response.identityUrl, hc]⟩ (by simp [Consumer.cleanup, hc, ServiceCalls]) h3
            | some u =>
              refine step [.cleanup u true (Manager.cleanup s.manager u true).1] _ ⟨_, _, rfl, ?_⟩ ?_ h3
              · simp [Consumer.Response.identityUrl, hc]
              · simp [Consumer.cleanup, hc, ServiceCalls]
          | cancel e =>
            cases e with
            | none => exact step [] _ ⟨_, _, rfl, by simp [Consumer.Response.identityUrl]⟩ (by simp [Consumer.cleanup, ServiceCalls]) h3
            | some e =>
              cases hc : e.claimedId with
              | none => exact step [] _ ⟨_, _, rfl, by simp [Consumer.Response.identityUrl, hc]⟩ (by simp [Consumer.cleanup, hc, ServiceCalls]) h3
              | some u =>
                refine step [.cleanup u true (Manager.cleanup s.manager u true).1] _ ⟨_, _, rfl, ?_⟩ ?_ h3
                · simp [Consumer.Response.identityUrl, hc]
                · simp [Consumer.cleanup, hc, ServiceCalls]
          | failure e x => exact step [] (Consumer.cleanup { s with token := none } (.failure e x)) ⟨_, _, rfl, rfl⟩ rfl h3
          | setupNeeded e x => exact step [] (Consumer.cleanup { s with token := none } (.setupNeeded e x)) ⟨_, _, rfl, rfl⟩ rfl h3

/-! ## A session: two attempts with the services found, the second cancelled, then a new discovery -/

def second0 : Endpoint := { endpoint0 with serverUrl := t!"http://op2.example/" }
def found0 : Except PyErr (Str × List Endpoint) := .ok (t!"http://u.example/", [endpoint0, second0])

/-- the results of a session of `begin`s and `complete`s -/
def playVisits (W : World) (C : Conf) (E : Consumer.Env) : UserSession → List ((Str ⊕ Dict Str Str) × List Ev) →
    Option (List Visit × UserSession)
  | s, [] => some ([], s)
  | s, (.inl url, evs) :: rest =>
    match play (Consumer.begin W C E s url false) evs with
    | some (.ok (s1, o)) => (playVisits W C E s1 rest).map fun x => (.begin E url false evs (.ok (s1, o)) :: x.1, x.2)
    | _ => none
  | s, (.inr q, evs) :: rest =>
    match play (Consumer.complete W C E s q t!"http://rp.example/back") evs with
    | some (.ok (s1, o)) => (playVisits W C E s1 rest).map fun x =>
        (.complete E q t!"http://rp.example/back" evs (.ok (s1, o)) :: x.1, x.2)
    | _ => none

theorem playVisits_visits {W : World} {C : Conf} {E : Consumer.Env} {s s' : UserSession}
    {l : List ((Str ⊕ Dict Str Str) × List Ev)} {vs : List Visit} (h : playVisits W C E s l = some (vs, s')) :
    Visits W C s vs s' := by
  induction l generalizing s vs with
  | nil => simp [playVisits] at h; obtain ⟨rfl, rfl⟩ := h; rfl
  | cons x rest ih =>
    obtain ⟨url | q, evs⟩ := x
    · rw [playVisits] at h
      split at h
      · next hp =>
        simp only [Option.map_eq_some_iff, Prod.mk.injEq] at h
        obtain ⟨⟨vs', s2⟩, h1, rfl, rfl⟩ := h
        exact ⟨play_runs hp, _, _, rfl, ih h1⟩
      · cases h
    · rw [playVisits] at h
      split at h
      · next hp =>
        simp only [Option.map_eq_some_iff, Prod.mk.injEq] at h
        obtain ⟨⟨vs', s2⟩, h1, rfl, rfl⟩ := h
        exact ⟨play_runs hp, _, _, rfl, ih h1⟩
      · cases h

def visits0 : List ((Str ⊕ Dict Str Str) × List Ev) :=
  [(.inl t!"http://u.example/", [.discover t!"http://u.example/" found0]),
   (.inl t!"http://u.example/", []),
   (.inr [(t!"openid.mode", t!"cancel")], []),
   (.inl t!"http://u.example/", [.discover t!"http://u.example/" found0]),
   (.inl t!"http://other.example/", [.discover t!"http://other.example/" (.ok (t!"http://other.example/", []))]),
   (.inl t!"http://u.example/", [])]

/-- the providers the requests go to -/
def tried0 (vs : List Visit) : List (Option Str) :=
  vs.map fun
    | .begin _ _ _ _ (.ok (_, .ok q)) => some q.endpoint.serverUrl
    | _ => none

example : (playVisits cworld0 ⟨false, []⟩ cenv0 ⟨none, none⟩ visits0).map (fun x => tried0 x.1) =
    some [some t!"http://op.example/", some t!"http://op2.example/", none, some t!"http://op.example/", none,
      some t!"http://op2.example/"] := by decide +kernel

end Props
