import Verif.Lemmas.ServerStores
import Verif.Spec.Login

namespace SqlStore
open Py Association Store Spec

/-- an SQL database in any state it can get into -/
abbrev Sound (D : Driver) := { db : Db // Inv D.backend db }

/-- one call, during which the database shows no fault -/
def soundStep (D : Driver) (c : Clock) (s : Sound D) (e : Event) : Sound D × Outcome :=
  let x := keptStep D c ⟨s, 0, fun _ => (noFault, none)⟩ e
  (x.1.db, x.2)

def soundView {D : Driver} (s : Sound D) : AssocMap := view s.1

/-- no two of a server's associations were issued in the same second -/
def Ranked {D : Driver} (s : Sound D) (url : Str) : Prop :=
  ∀ h1 h2 a1 a2, soundView s url h1 = some a1 → soundView s url h2 = some a2 → a1.issued = a2.issued → a1 = a2

def soundInit (D : Driver) : Sound D := ⟨Db.empty, inv_empty _⟩

theorem sound_faithful (D : Driver) (c : Clock) : Faithful c (soundStep D c) (soundView (D := D)) where
  put s := (faithful D c).put ⟨s, 0, fun _ => (noFault, none)⟩
  get s := (faithful D c).get ⟨s, 0, fun _ => (noFault, none)⟩
  remove s := (faithful D c).remove ⟨s, 0, fun _ => (noFault, none)⟩
  nonce s := (faithful D c).nonce ⟨s, 0, fun _ => (noFault, none)⟩
  cleanNonces s := (faithful D c).cleanNonces ⟨s, 0, fun _ => (noFault, none)⟩
  cleanAssocs s := (faithful D c).cleanAssocs ⟨s, 0, fun _ => (noFault, none)⟩

theorem soundView_step (D : Driver) (c : Clock) (s : Sound D) (e : Event) :
    soundView (soundStep D c s e).1 = tableStep c (soundView s) (e, (soundStep D c s e).2) :=
  keptView_step D c ⟨s, 0, fun _ => (noFault, none)⟩ e

theorem permitted_usual {D : Driver} (hD : D.backend ≠ .mysql) {op : Op} (h : ∀ u a, op = .storeAssociation u a → Usual op) :
    Permitted D op := by
  intro u a e
  refine ⟨.inl hD, ?_⟩
  have := h u a e
  subst e
  rcases this with h | h <;> rw [h] <;> decide

theorem soundStep_eq {D : Driver} (c : Clock) (s : Sound D) (now : Nat) (op : Op) (hp : Permitted D op) :
    (soundStep D c s (now, op)).2 = (step D c s.1 ⟨now, op, noFault, none⟩).2 ∧
    (soundStep D c s (now, op)).1.1 = (step D c s.1 ⟨now, op, noFault, none⟩).1 := by
  simp only [soundStep, keptStep, dif_pos hp, and_self]

theorem step_of_txn {D : Driver} {c : Clock} {db : Db} {now : Nat} {op : Op} {a : Answer} {cur : Cur}
    (h : txn D c noFault now op ⟨db, 0, 0⟩ = (.ok a, cur)) : (step D c db ⟨now, op, noFault, none⟩).2 = .ok a := by
  have h' : txn D c noFault now op ⟨(Conn.rollback ⟨db, db⟩).working, 0, 0⟩ = (.ok a, cur) := h
  unfold step call callInTransaction
  simp only [h']
  unfold sqliteCatch
  split
  · next heq => simp at heq
  · rfl

theorem get_step {D : Driver} (c : Clock) (s : Sound D) (now : Nat) (url : Str) (handle : Option Str) :
    ∃ rows : List Assoc,
      (∀ a, a ∈ rows ↔ ∃ h, (handle = none ∨ handle = some h) ∧ soundView s url h = some a ∧ ¬ expired (c.seconds now) a) ∧
      (soundStep D c s (now, .getAssociation url handle)).2 = (latest rows).map Answer.assoc := by
  obtain ⟨rows, c', hr, hx⟩ := get_noFault D.backend (c.seconds now) url handle ⟨s.1, 0, 0⟩ s.2
  refine ⟨rows, hr, ?_⟩
  rw [(soundStep_eq c s now _ (by intro u a h; cases h)).1]
  unfold step call callInTransaction
  simp only [txn, bind_def, Conn.rollback]
  rw [hx]
  cases latest rows <;> rfl

theorem store_noFault {D : Driver} {url : Str} {a : Assoc} {db : Db} (hd : Inv D.backend db) (hu : Plain D.backend url) :
    ∃ cur, txnStoreAssociation D.backend noFault url a ⟨db, 0, 0⟩ = (.ok (), cur) := by
  unfold txnStoreAssociation
  split
  · next hB =>
    unfold postgresSetAssoc
    simp only [bind_def, select, noFault]
    split
    · next h0 =>
      refine ⟨_, execute_noFault _ _ { db with assocs := db.assocs ++ [(url, a)] } 1 ?_⟩
      rw [insertInto, if_neg]
      rw [Bool.not_eq_true, List.any_eq_false]
      intro r hr hs
      rw [← hB, sameKey_iff D.backend db hd url a.handle hu r hr] at hs
      have : r.2 ∈ selectOne url a.handle db := by
        rw [selectOne, List.mem_map]; exact ⟨r, List.mem_filter.2 ⟨hr, hs⟩, rfl⟩
      rw [List.length_eq_zero_iff.1 h0] at this
      cases this
    · exact ⟨_, execute_noFault _ _ _ _ rfl⟩
  · exact ⟨_, execute_noFault _ _ _ _ rfl⟩

theorem latest_same {rows : List Assoc} (h : ∀ a ∈ rows, ∀ b ∈ rows, a.issued = b.issued → a = b) :
    ∃ r, latest rows = .ok r := by
  cases hl : latest rows with
  | ok r => exact ⟨r, rfl⟩
  | error e =>
    obtain ⟨-, a, ha, b, hb, hne, hi⟩ := (latest_error rows e).1 hl
    exact absurd (h a ha b hb hi) hne

theorem sound_never (D : Driver) (c : Clock) (hD : D.backend ≠ .mysql) : NeverFails (soundStep D c) := by
  intro s now op hop
  have hp : Permitted D op := permitted_usual hD fun _ _ _ => hop
  have hstep := (soundStep_eq c s now op hp).1
  cases op with
  | storeAssociation url a =>
    obtain ⟨cur, h⟩ := store_noFault (url := url) (a := a) s.2 (.inl hD)
    exact ⟨_, hstep.trans (step_of_txn (by rw [txn, bind_def, h]; rfl))⟩
  | getAssociation url handle =>
    cases handle with
    | none => exact hop.elim
    | some h =>
      obtain ⟨rows, hr, hx⟩ := get_step c s now url (some h)
      have hone : ∀ a ∈ rows, soundView s url h = some a := by
        intro a ha
        obtain ⟨h', h1, h2, -⟩ := (hr a).1 ha
        rcases h1 with h1 | h1 <;> cases h1
        exact h2
      obtain ⟨r, hl⟩ := latest_same (rows := rows) (fun a ha b hb _ => by
        have := (hone a ha).symm.trans (hone b hb); cases this; rfl)
      exact ⟨_, by rw [hx, hl]; rfl⟩
  | removeAssociation url h =>
    refine ⟨_, hstep.trans (step_of_txn (a := .bool (decide (0 < (s.1.assocs.filter (isRow url h)).length))) (cur := ?_) ?_)⟩
    rotate_left
    · simp only [txn, bind_def, txnRemoveAssociation, execute_noFault (deleteRows (isRow url h)) _ _ _ rfl]; rfl
  | useNonce url t salt =>
    rw [hstep]
    by_cases ho : outside c now t = true
    · exact ⟨.bool false, step_of_txn (by simp only [txn, bind_def, txnUseNonce, if_pos ho]; rfl)⟩
    · by_cases hn : s.1.nonces.any (sameNonce D.backend (url, t, salt)) = true
      · have hi : insertNonce D (url, t, salt) s.1 = .error D.notUnique := by rw [insertNonce, if_pos hn]
        refine ⟨.bool false, ?_⟩
        by_cases hold : D.backend = .sqlite ∧ D.oldSqlite
        · have ht : txn D c noFault now (.useNonce url t salt) ⟨s.1, 0, 0⟩ = (.error (.operationalError true), ⟨s.1, 1, 0⟩) := by
            simp [txn, bind_def, txnUseNonce, ho, Txn.except, execute, noFault, hi, Driver.notUnique, hold]
          unfold step call callInTransaction
          simp only [Conn.rollback, ht, sqliteCatch, if_pos hold.1]
        · refine step_of_txn (cur := ⟨s.1, 1, 0⟩) ?_
          have hnu : D.notUnique = .integrityError := by rw [Driver.notUnique, if_neg hold]
          simp [txn, bind_def, txnUseNonce, ho, Txn.except, execute, noFault, hi, hnu, pure_def]
      · refine ⟨.bool true, step_of_txn (cur := ⟨{ s.1 with nonces := s.1.nonces ++ [(url, t, salt)] }, 1, 1⟩) ?_⟩
        simp [txn, bind_def, txnUseNonce, ho, Txn.except, execute, noFault, insertNonce, hn, pure_def]
  | cleanupNonces =>
    exact ⟨_, hstep.trans (step_of_txn (by
      simp only [txn, bind_def, txnCleanupNonces, execute_noFault (cleanNonces (c.seconds now - Nonce.SKEW)) _ _ _ rfl]; rfl))⟩
  | cleanupAssociations =>
    exact ⟨_, hstep.trans (step_of_txn (by
      simp only [txn, bind_def, txnCleanupAssociations,
        execute_noFault (deleteRows fun r => decide (r.2.issued + r.2.lifetime < c.seconds now)) _ _ _ rfl]; rfl))⟩

theorem tableStep_sub {c : Clock} {m : AssocMap} {e : Event} {o : Outcome} {url h : Str} {a : Assoc}
    (hne : ∀ a, e.2 ≠ .storeAssociation url a) (hv : tableStep c m (e, o) url h = some a) : m url h = some a := by
  obtain ⟨now, op⟩ := e
  cases o with
  | error x => exact hv
  | ok x =>
    cases op with
    | storeAssociation u b =>
      simp only [tableStep] at hv
      split at hv
      · next h1 => exact absurd (h1.1 ▸ rfl) (hne b)
      · exact hv
    | getAssociation u k =>
      simp only [tableStep] at hv
      split at hv
      · exact (Option.filter_eq_some_iff.1 hv).1
      · exact hv
    | removeAssociation u k =>
      simp only [tableStep] at hv
      split at hv
      · cases hv
      · exact hv
    | useNonce u t x => exact hv
    | cleanupNonces => exact hv
    | cleanupAssociations => exact (Option.filter_eq_some_iff.1 hv).1

end SqlStore
