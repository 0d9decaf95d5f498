import Verif.Lemmas.SqlStore
import Verif.Props.MemStore
/-! # C19, C23, C24, C54: the SQL stores

Specification: `Verif/Spec/Store.lean`.  `run D c Db.empty calls` is the trace any number of clients see of
a database that starts empty, with whatever exceptions the database raises during each call (`Call.fault`,
`Call.commitFault`), and the database they leave. -/

namespace Props
open Py Association Store SqlStore

/-- a call during which the database raises nothing by itself -/
def quiet (now : Nat) (op : Op) : Call := ⟨now, op, fun _ => none, none⟩

/-- times of the calls never run backwards -/
def CallsMonotone (calls : List Call) : Prop := calls.Pairwise fun a b => a.now ≤ b.now

/-- URLs no longer than what MySQL's primary keys look at; any URL for the other databases -/
def ShortUrl (D : Driver) (url : Str) : Prop := D.backend ≠ .mysql ∨ (Utf8.encode url).length ≤ 255

/-- the program stores associations of a known type under such URLs -/
def GoodStores (D : Driver) (calls : List Call) : Prop :=
  ∀ e ∈ calls, ∀ url a, e.op = .storeAssociation url a →
    ShortUrl D url ∧ a.assocType ∈ [t!"HMAC-SHA1", t!"HMAC-SHA256"]

theorem goodCalls {D : Driver} {calls : List Call} (h : GoodStores D calls) : ∀ e ∈ calls, GoodCall D e := by
  intro e he u a ho
  obtain ⟨h1, h2⟩ := h e he u a ho
  refine ⟨h1, ?_⟩
  rcases List.mem_cons.1 h2 with h | h
  · rw [h]; decide
  · rw [List.mem_singleton.1 h]; decide

theorem run_times (D : Driver) (c : Clock) (db : Db) (calls : List Call) :
    (run D c db calls).1.map (·.1) = calls.map fun e => (e.now, e.op) := by
  induction calls generalizing db with
  | nil => rfl
  | cons e r ih => simp [run, ih]

theorem mem_run_times (D : Driver) (c : Clock) (db : Db) (calls : List Call) (x : Event × Outcome)
    (hx : x ∈ (run D c db calls).1) : ∃ e ∈ calls, x.1 = (e.now, e.op) := by
  have : x.1 ∈ (run D c db calls).1.map (·.1) := List.mem_map_of_mem hx
  rw [run_times, List.mem_map] at this
  obtain ⟨e, he, h⟩ := this
  exact ⟨e, he, h.symm⟩

theorem monotone_le {pre : List Call} {e : Call} (h : CallsMonotone (pre ++ [e])) (D : Driver) (c : Clock) :
    ∀ x ∈ (run D c Db.empty pre).1, x.1.1 ≤ e.now := by
  intro x hx
  obtain ⟨e', he', h'⟩ := mem_run_times D c _ pre x hx
  unfold CallsMonotone at h
  rw [List.pairwise_append] at h
  rw [h']
  exact h.2.2 e' he' e (by simp)

/-! ## C19 -/

/-- **C19** at most once.  Whatever the calls, the clients and the failures, with a clock that never runs
    backwards: a nonce is accepted only within five hours of the clock and only if no earlier call with the
    same three values answered true. -/
theorem c19_once (D : Driver) (c : Clock) (pre : List Call) (e : Call) (url : Str) (t : Int) (salt : Str)
    (hop : e.op = .useNonce url t salt) (hm : CallsMonotone (pre ++ [e]))
    (h : (step D c (run D c Db.empty pre).2 e).2 = .ok (.bool true)) :
    c.within 18000 e.now t ∧ ¬ TakenIn (run D c Db.empty pre).1 url t salt := by
  rcases step_nonces D c (run D c Db.empty pre).2 e with ⟨u, t', s, ho, -, hw, hn, -⟩ | ⟨hno, -⟩
  · rw [hop] at ho
    cases ho
    refine ⟨hw, fun ht => ?_⟩
    rcases (run_nonces D c pre url t salt).2 ht with h1 | ⟨x, hx, hl⟩
    · exact hn _ h1 (by simp [sameNonce])
    · have hle := monotone_le hm D c x hx
      have h2 : c.seconds x.1.1 * c.tick ≤ e.now := by
        unfold Clock.seconds
        have := Nat.div_mul_le_self x.1.1 c.tick
        exact_mod_cast Nat.le_trans this hle
      have hw1 := hw.1
      have h3 : (t + Nonce.SKEW) * c.tick < c.seconds x.1.1 * c.tick :=
        Int.mul_lt_mul_of_pos_right (by omega) (by have := c.pos; omega)
      rw [Int.add_mul] at h3
      omega
  · exact absurd h (hno _ _ _ hop)

/-- **C19** an in-window nonce that was not taken is accepted, if the database does not fail. -/
theorem c19_fresh (D : Driver) (c : Clock) (pre : List Call) (now : Nat) (url : Str) (t : Int) (salt : Str)
    (hu : ∀ e ∈ quiet now (.useNonce url t salt) :: pre, ∀ u' t' s', e.op = .useNonce u' t' s' → ShortUrl D u')
    (hw : c.within 18000 now t) (hn : ¬ TakenIn (run D c Db.empty pre).1 url t salt) :
    (step D c (run D c Db.empty pre).2 (quiet now (.useNonce url t salt))).2 = .ok (.bool true) := by
  have hno : ∀ k ∈ (run D c Db.empty pre).2.nonces, ¬ sameNonce D.backend (url, t, salt) k = true := by
    intro k hk hs
    obtain ⟨u', t', s'⟩ := k
    have htk := (run_nonces D c pre u' t' s').1 hk
    obtain ⟨n', hx⟩ := htk
    obtain ⟨e, he, hev⟩ := mem_run_times D c _ pre _ hx
    simp only [Prod.mk.injEq] at hev
    have h1 := hu e (by simp [he]) u' t' s' hev.2.symm
    have h2 := hu (quiet now (.useNonce url t salt)) (by simp) url t salt rfl
    simp only [sameNonce, Bool.and_eq_true, beq_iff_eq, Prod.mk.injEq] at hs
    obtain ⟨hk1, rfl, rfl⟩ := hs
    have := urlKey_inj D.backend url u' h2 h1 hk1
    subst this
    exact hn ((run_nonces D c pre url t salt).1 hk)
  have hcall : ∃ conn', call D c ⟨(run D c Db.empty pre).2, (run D c Db.empty pre).2⟩
      (quiet now (.useNonce url t salt)) = (.ok (.bool true), conn') := by
    have ho : outside c now t = false := by
      rw [← Bool.not_eq_true, outside_iff]; exact fun h => h hw
    have hany : (run D c Db.empty pre).2.nonces.any (sameNonce D.backend (url, t, salt)) = false := by
      rw [List.any_eq_false]; exact hno
    generalize (run D c Db.empty pre).2 = db at hany
    have ht : txn D c (fun _ => none) now (.useNonce url t salt) ⟨db, 0, 0⟩ =
        (.ok (.bool true), ⟨{ db with nonces := db.nonces ++ [(url, t, salt)] }, 1, 1⟩) := by
      simp [txn, bind_def, txnUseNonce, ho, Txn.except, execute, insertNonce, hany, pure_def]
    refine ⟨⟨{ db with nonces := db.nonces ++ [(url, t, salt)] }, { db with nonces := db.nonces ++ [(url, t, salt)] }⟩, ?_⟩
    unfold call callInTransaction
    simp only [quiet, Conn.rollback, ht]
    rfl
  obtain ⟨conn', hc⟩ := hcall
  unfold step
  rw [hc]

/-- SQLite without faults -/
def sqlite0 : Driver := ⟨.sqlite, false⟩

example : CallsMonotone [quiet 20000 (.useNonce t!"http://op/" 20 t!"x"), quiet 20001 .cleanupNonces,
    quiet 20001 (.useNonce t!"http://op/" 20 t!"x")] := by
  simp [CallsMonotone, quiet]

example : ((run sqlite0 clock0 Db.empty [quiet 20000 (.useNonce t!"http://op/" 20 t!"x"),
    ⟨20001, .useNonce t!"http://op2/" 20 t!"x", fun _ => some (.operationalError false), none⟩,
    quiet 20001 (.useNonce t!"http://op/" 20 t!"x"), quiet 18021000 .cleanupNonces,
    quiet 18021000 (.useNonce t!"http://op/" 20 t!"x")]).1.map (·.2)) =
    [.ok (.bool true), .error (.operationalError false), .ok (.bool false), .ok (.count 1),
      .ok (.bool false)] := by decide

/-- **C19** the restriction on URLs is needed with MySQL: there a fresh nonce of one server is refused because
    another server's URL has the same first 255 bytes. -/
theorem c19_mysql_prefix :
    ∃ u v : Str, u ≠ v ∧
      (run ⟨.mysql, false⟩ clock0 Db.empty [quiet 0 (.useNonce u 0 t!"s"), quiet 0 (.useNonce v 0 t!"s")]).1.map (·.2) =
        [.ok (.bool true), .ok (.bool false)] :=
  ⟨List.replicate 255 'a' ++ t!"1", List.replicate 255 'a' ++ t!"2", by decide +kernel, by decide +kernel⟩

/-- **C19** the clock must not be stale: the code reads the clock before it inserts the row.  A client that
    is held up in between (the third call, whose time is that of its clock reading) has a nonce accepted
    a second time, if a cleanup came first. -/
theorem c19_stale_clock (D : Driver) :
    ∃ calls, (run D clock0 Db.empty calls).1 =
      [((0, .useNonce t!"http://op/" 0 t!"s"), .ok (.bool true)),
       ((18001000, .cleanupNonces), .ok (.count 1)),
       ((0, .useNonce t!"http://op/" 0 t!"s"), .ok (.bool true))] :=
  ⟨[quiet 0 (.useNonce t!"http://op/" 0 t!"s"), quiet 18001000 .cleanupNonces,
    quiet 0 (.useNonce t!"http://op/" 0 t!"s")], by
    obtain ⟨b, o⟩ := D
    cases b <;> cases o <;> decide⟩

/-! ## C24 -/

/-- **C24** nothing.  A call that raises leaves the database exactly as it was. -/
theorem c24_nothing (D : Driver) (c : Clock) (conn : Conn) (e : Call) (err : PyErr)
    (h : (call D c conn e).1 = .error err) : (call D c conn e).2.committed = conn.committed :=
  (call_error (Prod.ext h rfl)).1

/-- **C24** all.  A call that answers has had its full effect: the same as with a database that raises
    nothing.  The one exception is a nonce refused because the database claimed it to be there already,
    which changes nothing. -/
theorem c24_all (D : Driver) (c : Clock) (conn : Conn) (e : Call) (a : Answer)
    (h : (call D c conn e).1 = .ok a) :
    ((call D c conn (quiet e.now e.op)).1 = .ok a ∧
      (call D c conn (quiet e.now e.op)).2.committed = (call D c conn e).2.committed) ∨
    ((∃ u t s, e.op = .useNonce u t s) ∧ a = .bool false ∧
      (call D c conn e).2.committed = conn.committed) := by
  generalize hc : call D c conn e = r at h
  obtain ⟨o, conn'⟩ := r
  simp only at h
  subst h
  rcases call_ok hc with ⟨cur, ht, rfl⟩ | ⟨-, hop, rfl, hcm, -⟩
  · rcases txn_mono ht with hm | ⟨hop, ha, he⟩
    · left
      have : call D c conn (quiet e.now e.op) = (.ok a, ⟨cur.db, cur.db⟩) := by
        unfold call callInTransaction
        have hm' : txn D c (quiet e.now e.op).fault (quiet e.now e.op).now (quiet e.now e.op).op
            ⟨conn.rollback.working, 0, 0⟩ = (.ok a, cur) := hm
        simp only [hm']
        cases e.op <;> rfl
      rw [this]
      exact ⟨rfl, rfl⟩
    · right; exact ⟨hop, ha, he⟩
  · right; exact ⟨hop, rfl, hcm⟩

/-- **C24** a failure is not hidden: when the first statement of a call raises, the call raises the same,
    except for the errors by which a database reports a nonce that is there already. -/
theorem c24_raised (D : Driver) (c : Clock) (conn : Conn) (e : Call) (err : PyErr)
    (hf : e.fault 0 = some err) (h1 : err ≠ .integrityError) (h2 : err ≠ .operationalError true)
    (hop : ∀ url t salt, e.op = .useNonce url t salt → c.within 18000 e.now t) :
    (call D c conn e).1 = .error err := by
  have key : ∃ cur, txn D c e.fault e.now e.op ⟨conn.committed, 0, 0⟩ = (.error err, cur) := by
    cases ho : e.op with
    | useNonce url t salt =>
      have hw := hop url t salt ho
      have : outside c e.now t = false := by
        rw [← Bool.not_eq_true, outside_iff, Classical.not_not]; exact hw
      simp [txn, txnUseNonce, this, Txn.except, execute, hf, bind, Txn.bind, h1]
    | storeAssociation url a =>
      simp only [txn, txnStoreAssociation, postgresSetAssoc]
      split <;> simp [select, execute, hf, bind, Txn.bind]
    | getAssociation url h =>
      cases h <;> simp [txn, txnGetAssociation, fetchRows, select, hf, bind, Txn.bind]
    | removeAssociation url h => simp [txn, txnRemoveAssociation, execute, hf, bind, Txn.bind]
    | cleanupNonces => simp [txn, txnCleanupNonces, execute, hf, bind, Txn.bind]
    | cleanupAssociations => simp [txn, txnCleanupAssociations, execute, hf, bind, Txn.bind]
  obtain ⟨cur, hc⟩ := key
  have hc' : txn D c e.fault e.now e.op ⟨conn.rollback.working, 0, 0⟩ = (.error err, cur) := hc
  unfold call callInTransaction
  simp only [hc']
  unfold sqliteCatch
  split
  · next heq => simp only [Prod.mk.injEq, Except.error.injEq] at heq; exact absurd heq.1 h2
  · rfl

example : (call sqlite0 clock0 ⟨Db.empty, Db.empty⟩ ⟨0, .useNonce t!"http://op/" 0 t!"s",
    fun _ => some (.operationalError false), none⟩).1 = .error (.operationalError false) := by decide

/-- **C24** nothing left over from an earlier transaction matters: not the answer, not the effect. -/
theorem c24_leftover (D : Driver) (c : Clock) (db w : Db) (e : Call) :
    (call D c ⟨db, w⟩ e).1 = (call D c ⟨db, db⟩ e).1 ∧
    (call D c ⟨db, w⟩ e).2.committed = (call D c ⟨db, db⟩ e).2.committed := by
  have : callInTransaction (txn D c e.fault e.now e.op) e.commitFault ⟨db, w⟩ =
      callInTransaction (txn D c e.fault e.now e.op) e.commitFault ⟨db, db⟩ := rfl
  unfold call
  rw [this]
  exact ⟨rfl, rfl⟩

/-- a call that fails at its second statement, after the first deleted a row -/
example : ∃ conn : Conn, ∃ e : Call, (call sqlite0 clock0 conn e).1 = .error (.operationalError false) ∧
    conn.committed.assocs.length = 2 ∧ (call sqlite0 clock0 conn (quiet e.now e.op)).2.committed.assocs.length = 0 :=
  ⟨⟨⟨[(t!"u", ⟨t!"h1", [], 0, 5, t!"HMAC-SHA1"⟩), (t!"u", ⟨t!"h2", [], 0, 5, t!"HMAC-SHA1"⟩)], []⟩, ⟨[], []⟩⟩,
   ⟨9000, .getAssociation t!"u" none, fun n => if n = 2 then some (.operationalError false) else none, none⟩,
   by decide, by decide, by decide⟩

/-! ## C23 -/

/-- **C23** lookup by handle: the association last stored under that server and handle and not removed
    since, if it has not expired; otherwise nothing. -/
theorem c23_sql_get (D : Driver) (c : Clock) (pre : List Call) (e : Call) (url handle : Str) (r : Option Assoc)
    (hg : GoodStores D pre) (hm : CallsMonotone (pre ++ [e]))
    (hop : e.op = .getAssociation url (some handle))
    (h : (step D c (run D c Db.empty pre).2 e).2 = .ok (.assoc r)) :
    r = alive c e.now (lastStored (run D c Db.empty pre).1) url handle := by
  obtain ⟨hi, hv⟩ := run_table D c pre (goodCalls hg)
  rw [← alive_tableRows c _ _ (monotone_le hm D c), ← hv]
  unfold step at h
  generalize hc : call D c ⟨(run D c Db.empty pre).2, (run D c Db.empty pre).2⟩ e = q at h
  obtain ⟨o, conn'⟩ := q
  simp only at h
  subst h
  rcases call_ok hc with ⟨cur, ht, rfl⟩ | ⟨-, -, ha, -⟩
  · rw [hop] at ht
    simp only [txn, bind_ok, pure_def] at ht
    obtain ⟨x, c1, h1, h2⟩ := ht
    cases h2
    obtain ⟨rows, hr, hl, -⟩ := txn_get_ok hi.uniq h1
    obtain ⟨l1, l2⟩ := latest_ok rows r hl
    have hr' : ∀ a, a ∈ rows ↔ alive c e.now (view (run D c Db.empty pre).2) url handle = some a := by
      intro a
      rw [hr, alive, Option.filter_eq_some_iff]
      simp
    cases r with
    | none =>
      rw [(l1.1 rfl)] at hr'
      cases hx : alive c e.now (view (run D c Db.empty pre).2) url handle with
      | none => rfl
      | some a => exact absurd ((hr' a).2 hx) (by simp)
    | some a => exact ((hr' a).1 (l2 a rfl).1).symm
  · cases ha

/-- **C23** lookup without handle: nothing if no association of the server is alive, else one of those
    issued last. -/
theorem c23_sql_best (D : Driver) (c : Clock) (pre : List Call) (e : Call) (url : Str) (r : Option Assoc)
    (hg : GoodStores D pre) (hm : CallsMonotone (pre ++ [e]))
    (hop : e.op = .getAssociation url none)
    (h : (step D c (run D c Db.empty pre).2 e).2 = .ok (.assoc r)) :
    (r = none ↔ ∀ h, alive c e.now (lastStored (run D c Db.empty pre).1) url h = none) ∧
    (∀ a, r = some a →
      alive c e.now (lastStored (run D c Db.empty pre).1) url a.handle = some a ∧
      ∀ h' a', alive c e.now (lastStored (run D c Db.empty pre).1) url h' = some a' → a'.issued ≤ a.issued) := by
  obtain ⟨hi, hv⟩ := run_table D c pre (goodCalls hg)
  rw [← alive_tableRows c _ _ (monotone_le hm D c), ← hv]
  unfold step at h
  generalize hc : call D c ⟨(run D c Db.empty pre).2, (run D c Db.empty pre).2⟩ e = q at h
  obtain ⟨o, conn'⟩ := q
  simp only at h
  subst h
  rcases call_ok hc with ⟨cur, ht, rfl⟩ | ⟨-, -, ha, -⟩
  · rw [hop] at ht
    simp only [txn, bind_ok, pure_def] at ht
    obtain ⟨x, c1, h1, h2⟩ := ht
    cases h2
    obtain ⟨rows, hr, hl, -⟩ := txn_get_ok hi.uniq h1
    obtain ⟨l1, l2⟩ := latest_ok rows r hl
    have hr' : ∀ a, a ∈ rows ↔ ∃ h, alive c e.now (view (run D c Db.empty pre).2) url h = some a := by
      intro a
      rw [hr]
      simp only [alive, Option.filter_eq_some_iff]
      simp
    refine ⟨?_, fun a ha => ?_⟩
    · rw [l1]
      constructor
      · intro he h
        cases hx : alive c e.now (view (run D c Db.empty pre).2) url h with
        | none => rfl
        | some a => have := (hr' a).2 ⟨h, hx⟩; rw [he] at this; simp at this
      · intro hn
        rw [List.eq_nil_iff_forall_not_mem]
        intro a ha
        obtain ⟨h, hh⟩ := (hr' a).1 ha
        rw [hn h] at hh; cases hh
    · obtain ⟨m1, m2⟩ := l2 a ha
      obtain ⟨h, hh⟩ := (hr' a).1 m1
      have hvw := (Option.filter_eq_some_iff.1 hh).1
      have := view_handle _ _ _ _ hvw
      refine ⟨by rw [this]; exact hh, fun h' a' h2 => m2 a' ((hr' a').2 ⟨h', h2⟩)⟩
  · cases ha

/-- **C23** when a lookup raises although the database does not fail: only without handle, only `TypeError`,
    and exactly when two live associations of the server were issued in the same second. -/
theorem c23_sql_raises (D : Driver) (c : Clock) (pre : List Call) (now : Nat) (url : Str) (handle : Option Str)
    (hg : GoodStores D pre) (hm : CallsMonotone (pre ++ [quiet now (.getAssociation url handle)])) (err : PyErr) :
    (step D c (run D c Db.empty pre).2 (quiet now (.getAssociation url handle))).2 = .error err ↔
    err = .typeError ∧ handle = none ∧
      ∃ h1 a1 h2 a2, alive c now (lastStored (run D c Db.empty pre).1) url h1 = some a1 ∧
        alive c now (lastStored (run D c Db.empty pre).1) url h2 = some a2 ∧ a1 ≠ a2 ∧ a1.issued = a2.issued := by
  obtain ⟨hi, hv⟩ := run_table D c pre (goodCalls hg)
  rw [← alive_tableRows c _ now (monotone_le hm D c), ← hv]
  obtain ⟨rows, c', hr, hx⟩ := get_noFault D.backend (c.seconds now) url handle ⟨(run D c Db.empty pre).2, 0, 0⟩ hi
  have hst : (step D c (run D c Db.empty pre).2 (quiet now (.getAssociation url handle))).2 =
      (latest rows).map Answer.assoc := by
    have hx' : txnGetAssociation (quiet now (.getAssociation url handle)).fault (c.seconds now) url handle
        ⟨(run D c Db.empty pre).2, 0, 0⟩ = (latest rows, c') := hx
    unfold step call callInTransaction
    simp only [quiet, txn, bind_def, Conn.rollback] at hx' ⊢
    rw [hx']
    cases latest rows <;> rfl
  rw [hst]
  have hr' : ∀ a, a ∈ rows ↔ ∃ h, (handle = none ∨ handle = some h) ∧
      alive c now (view (run D c Db.empty pre).2) url h = some a := by
    intro a
    rw [hr]
    simp only [alive, Option.filter_eq_some_iff]
    simp
  have hle : ((latest rows).map Answer.assoc = .error err) ↔ latest rows = .error err := by
    cases latest rows <;> simp [Except.map]
  rw [hle, latest_error]
  constructor
  · rintro ⟨rfl, a, ha, b, hb, hne, hiss⟩
    obtain ⟨h1, hc1, hv1⟩ := (hr' a).1 ha
    obtain ⟨h2, hc2, hv2⟩ := (hr' b).1 hb
    refine ⟨rfl, ?_, h1, a, h2, b, hv1, hv2, hne, hiss⟩
    rcases hc1 with h | h
    · exact h
    · rcases hc2 with h' | h'
      · exact h'
      · rw [h] at h'; cases h'
        rw [hv1] at hv2; cases hv2
        exact absurd rfl hne
  · rintro ⟨rfl, rfl, h1, a1, h2, a2, hv1, hv2, hne, hiss⟩
    exact ⟨rfl, a1, (hr' a1).2 ⟨h1, .inl rfl, hv1⟩, a2, (hr' a2).2 ⟨h2, .inl rfl, hv2⟩, hne, hiss⟩

/-- two stored, one expires -/
def sqlCalls0 : List Call := [
  quiet 1000 (.storeAssociation t!"u" ⟨t!"h1", [1], 0, 5, t!"HMAC-SHA1"⟩),
  quiet 1000 (.storeAssociation t!"u" ⟨t!"h2", [2], 1, 9, t!"HMAC-SHA1"⟩)]

example : GoodStores sqlite0 sqlCalls0 ∧ CallsMonotone (sqlCalls0 ++ [quiet 5000 (.getAssociation t!"u" none)]) ∧
    (run sqlite0 clock0 Db.empty (sqlCalls0 ++ [quiet 4999 (.getAssociation t!"u" (some t!"h1")),
      quiet 5000 (.getAssociation t!"u" (some t!"h1")), quiet 5000 (.getAssociation t!"u" none),
      quiet 9000 (.removeAssociation t!"u" t!"h1"), quiet 10000 .cleanupAssociations,
      quiet 11000 .cleanupAssociations])).1.map (·.2) =
    [.ok .nothing, .ok .nothing, .ok (.assoc (some ⟨t!"h1", [1], 0, 5, t!"HMAC-SHA1"⟩)), .ok (.assoc none),
     .ok (.assoc (some ⟨t!"h2", [2], 1, 9, t!"HMAC-SHA1"⟩)), .ok (.bool false), .ok (.count 0), .ok (.count 1)] := by
  refine ⟨?_, by simp [CallsMonotone, sqlCalls0, quiet], by decide⟩
  intro e he u a ho
  refine ⟨.inl (by decide), ?_⟩
  simp only [sqlCalls0, List.mem_cons, List.not_mem_nil, or_false] at he
  rcases he with rfl | rfl <;> cases ho <;> decide

/-- **C23** two associations made in the same second make every later lookup without handle raise. -/
theorem c23_tie_raises (D : Driver) : ∃ calls, GoodStores D calls ∧
    (step D clock0 (run D clock0 Db.empty calls).2 (quiet 1000 (.getAssociation t!"u" none))).2 =
      .error .typeError := by
  refine ⟨[quiet 0 (.storeAssociation t!"u" ⟨t!"h1", [1], 0, 5, t!"HMAC-SHA1"⟩),
    quiet 0 (.storeAssociation t!"u" ⟨t!"h2", [2], 0, 5, t!"HMAC-SHA1"⟩)], ?_, ?_⟩
  · intro e he u a ho
    simp only [List.mem_cons, List.not_mem_nil, or_false] at he
    rcases he with rfl | rfl <;> cases ho <;> exact ⟨.inr (by decide), by decide⟩
  · obtain ⟨B, o⟩ := D
    cases B <;> cases o <;> decide

/-! ## C54 -/

/-- **C54** removal answers whether the table had the row. -/
theorem c54_remove (D : Driver) (c : Clock) (pre : List Call) (e : Call) (url handle : Str) (b : Bool)
    (hg : GoodStores D pre) (hop : e.op = .removeAssociation url handle)
    (h : (step D c (run D c Db.empty pre).2 e).2 = .ok (.bool b)) :
    b = (tableRows c (run D c Db.empty pre).1 url handle).isSome := by
  obtain ⟨hi, hv⟩ := run_table D c pre (goodCalls hg)
  rw [← hv]
  unfold step at h
  generalize hc : call D c ⟨(run D c Db.empty pre).2, (run D c Db.empty pre).2⟩ e = q at h
  obtain ⟨o, conn'⟩ := q
  simp only at h
  subst h
  rcases call_ok hc with ⟨cur, ht, rfl⟩ | ⟨-, ⟨u, t, s, ho⟩, -⟩
  · rw [hop] at ht
    simp only [txn, bind_ok, pure_def] at ht
    obtain ⟨x, c1, h1, h2⟩ := ht
    cases h2
    obtain ⟨-, rfl⟩ := remove_ok h1
    have : (view (run D c Db.empty pre).2 url handle) =
        ((List.filter (isRow url handle) (run D c Db.empty pre).2.assocs).map (·.2)).head? := rfl
    rw [this]
    cases List.filter (isRow url handle) (run D c Db.empty pre).2.assocs <;> simp
  · rw [hop] at ho; cases ho

/-- **C54** cleanup answers the number of rows it deletes: those whose lifetime ended before the current
    second (`ks` lists them, each once). -/
theorem c54_cleanup (D : Driver) (c : Clock) (pre : List Call) (e : Call) (n : Nat)
    (hg : GoodStores D pre) (hop : e.op = .cleanupAssociations)
    (h : (step D c (run D c Db.empty pre).2 e).2 = .ok (.count n)) :
    ∃ ks : List (Str × Str), ks.Nodup ∧ n = ks.length ∧
      ∀ u h, (u, h) ∈ ks ↔ ∃ a, tableRows c (run D c Db.empty pre).1 u h = some a ∧
        a.issued + a.lifetime < c.seconds e.now := by
  obtain ⟨hi, hv⟩ := run_table D c pre (goodCalls hg)
  rw [← hv]
  unfold step at h
  generalize hc : call D c ⟨(run D c Db.empty pre).2, (run D c Db.empty pre).2⟩ e = q at h
  obtain ⟨o, conn'⟩ := q
  simp only at h
  subst h
  rcases call_ok hc with ⟨cur, ht, rfl⟩ | ⟨-, ⟨u, t, s, ho⟩, -⟩
  · rw [hop] at ht
    simp only [txn, txnCleanupAssociations, bind_ok, pure_def, execute_ok, getRowcount] at ht
    obtain ⟨x, c1, ⟨_, c2, ⟨-, db, k, hs, rfl⟩, h3⟩, h2⟩ := ht
    cases h2; cases h3; cases hs
    refine ⟨((run D c Db.empty pre).2.assocs.filter fun r =>
        decide (r.2.issued + r.2.lifetime < c.seconds e.now)).map fun r => (r.1, r.2.handle), ?_, by simp, ?_⟩
    · rw [List.nodup_iff_pairwise_ne, List.pairwise_map]
      refine (List.Pairwise.filter _ hi.uniq).imp ?_
      intro r s hrs he
      simp only [Prod.mk.injEq] at he
      exact hrs he
    · intro u h
      simp only [List.mem_map, List.mem_filter, decide_eq_true_eq, Prod.mk.injEq, view_some_iff _ hi.uniq]
      constructor
      · rintro ⟨⟨u', a⟩, ⟨hm, hl⟩, rfl, rfl⟩; exact ⟨a, ⟨hm, rfl⟩, hl⟩
      · rintro ⟨a, ⟨hm, rfl⟩, hl⟩; exact ⟨(u, a), ⟨hm, hl⟩, rfl, rfl⟩
  · rw [hop] at ho; cases ho

end Props
