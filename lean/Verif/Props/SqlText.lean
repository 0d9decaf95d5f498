import Verif.Lemmas.SqlTextSent
import Verif.Props.Replay
/-! # C80: the SQL stores down to the texts of their statements -/

namespace Props
open Py Sql SqlStore SqlText Association Store

/-- C80: `createTables` works in a database without tables of the two names; after it, any sequence of calls, with any
    failures of the database, has the outcomes of the operations on the two typed tables (`SqlStore.run`), leaves the rows
    that these leave, and does not touch any other table. -/
theorem c80_trace (V : Env) (a n : Str) (g : Good V a n) (c : Clock) (ts : Tables) (ha : ts.get? (lower a) = none)
    (hn : ts.get? (lower n) = none) (calls : List Call) (hs : ∀ e ∈ calls, ShortOp V.driver.backend e.op) :
    ∃ s, callInTransaction (createTables V fun _ => none) none ⟨ts, [], []⟩ = (.ok (), s) ∧
      Shows a n s.tables Db.empty ts ∧
      (SqlText.run V c s calls).1 = (SqlStore.run V.driver c Db.empty calls).1 ∧
      Shows a n (SqlText.run V c s calls).2.tables (SqlStore.run V.driver c Db.empty calls).2 ts := by
  obtain ⟨s, h1, h2⟩ := create_ok g.toNamed ts ha hn
  obtain ⟨h3, h4⟩ := run_sim g c h2 calls hs
  exact ⟨s, h1, h2.shows, h3, h4.shows⟩

/-- C80: so a nonce is accepted at most once by the statements as written. -/
theorem c80_once (V : Env) (a n : Str) (g : Good V a n) (c : Clock) (ts : Tables) (ha : ts.get? (lower a) = none)
    (hn : ts.get? (lower n) = none) (calls : List Call) (hs : ∀ e ∈ calls, ShortOp V.driver.backend e.op)
    (hm : CallsMonotone calls) (s : State)
    (h : callInTransaction (createTables V fun _ => none) none ⟨ts, [], []⟩ = (.ok (), s)) :
    Spec.OnceEach ((SqlText.run V c s calls).1.map fun p => (p.1.2, p.2)) := by
  obtain ⟨s', h1, _, h2, _⟩ := c80_trace V a n g c ts ha hn calls hs
  rw [h] at h1
  cases h1
  rw [h2]
  exact c38_sql_store V.driver c calls hm

/-- C80: whatever the arguments of the calls and whatever the database does, all that is handed to the database are the
    statements written in the class with the names of the tables put in, the arguments apart from them and none of them a
    text.  (No assumption on the names or the database.) -/
theorem c80_statements (V : Env) (c : Clock) (ts : Tables) (f : Fault) (cf : Option PyErr) (calls : List Call) :
    ∀ p ∈ (SqlText.run V c (callInTransaction (createTables V f) cf ⟨ts, [], []⟩).2 calls).2.sent, FromTemplate V p := by
  obtain ⟨h1, m, h2, h3⟩ := keeps_txn (keeps_create (V := V) f) cf ⟨ts, [], []⟩ (by intro _ _ h; simp [Dict.get?] at h)
  obtain ⟨_, m', k2, k3⟩ := keeps_run (V := V) c calls _ h1
  intro p hp
  rw [k2, h2] at hp
  simp only [List.nil_append, List.mem_append] at hp
  rcases hp with hp | hp
  · exact h3 p hp
  · exact k3 p hp

/-- C80: the constructor refuses to use the default table names: left out, `None` reaches an assertion. -/
theorem c80_defaults (conn : Bool) (cls : Option Bool) (x : Option Str) :
    SqlText.init conn cls none x = .error .assertionError ∧ SqlText.init conn cls x none = .error .assertionError := by
  cases x <;> exact ⟨rfl, rfl⟩

/-- C80: with texts for both names it takes them, the empty text standing for the default; a connection without exception
    classes is refused unless the class has a module with them. -/
theorem c80_init (conn : Bool) (cls : Option Bool) (x y : Str) (names : Dict Str Str) :
    SqlText.init conn cls (some x) (some y) = .ok names ↔
      (conn = true ∨ cls = some true) ∧
      names = [(t!"associations", if x = [] then t!"oid_associations" else x),
               (t!"nonces", if y = [] then t!"oid_nonces" else y)] := by
  have e : SqlText.init conn cls (some x) (some y) = (checkExceptions conn cls).map fun _ =>
      [(t!"associations", if x = [] then t!"oid_associations" else x),
       (t!"nonces", if y = [] then t!"oid_nonces" else y)] := by
    simp only [SqlText.init, tableNames, textOrNone, bind, Except.bind, pure, Except.pure]
    cases checkExceptions conn cls <;> rfl
  rw [e]
  unfold checkExceptions
  cases conn
  · rcases cls with _ | _ | _ <;> simp [Except.map, eq_comm]
  · simp [Except.map, eq_comm]

/-- C80: PostgreSQL with a driver that sends byte strings as binary values, as psycopg2 does under Python 3: every
    operation that has a text among its arguments is refused by the database, every time, and nothing is stored. -/
theorem c80_postgres_bytes (V : Env) (a n : Str) (g : Named V a n) (hB : V.driver.backend = .postgres)
    (hb : V.engine.bytesAsText = false) (c : Clock) (ts : Tables) (ha : ts.get? (lower a) = none)
    (hn : ts.get? (lower n) = none) (calls : List (Nat × Op)) (hs : ∀ e ∈ calls, SendsText c e.1 e.2) :
    ∃ s, callInTransaction (createTables V fun _ => none) none ⟨ts, [], []⟩ = (.ok (), s) ∧
      (SqlText.run V c s (calls.map fun e => quiet e.1 e.2)).1 = calls.map (fun e => (e, .error refused)) ∧
      (SqlText.run V c s (calls.map fun e => quiet e.1 e.2)).2.tables = s.tables := by
  obtain ⟨s, h1, h2⟩ := create_ok g ts ha hn
  refine ⟨s, h1, ?_⟩
  clear h1
  generalize Db.empty = d at h2
  induction calls generalizing s with
  | nil => exact ⟨rfl, rfl⟩
  | cons e r ih =>
    obtain ⟨k1, k2⟩ := txn_raises (cf := none) (body_refused g hB hb c e.1 e.2 (hs e (by simp)) h2)
    have k3 := (keeps_txn (keeps_body (V := V) c (fun _ => none) e.1 e.2) none s h2.cached).1
    have h2' : Holds V a n (fun t => ts.get? t) (SqlText.step V c s (quiet e.1 e.2)).1 d :=
      ⟨by rw [show (SqlText.step V c s (quiet e.1 e.2)).1.tables = s.tables from k2]; exact h2.rep, k3⟩
    obtain ⟨i1, i2⟩ := ih (fun e' he => hs e' (by simp [he])) _ h2'
    have ho : (SqlText.step V c s (quiet e.1 e.2)).2 = .error refused := by
      show SqlText.sqliteCatch V.driver.backend e.2 _ = _
      have k1' : (callInTransaction (body V c (quiet e.1 e.2).fault (quiet e.1 e.2).now (quiet e.1 e.2).op)
        (quiet e.1 e.2).commitFault s).1 = .error refused := k1
      rw [k1']
      unfold SqlText.sqliteCatch
      split
      · next h => cases h
      · rfl
    refine ⟨?_, ?_⟩
    · simp only [List.map_cons, SqlText.run, i1, ho]
      rfl
    · simp only [List.map_cons, SqlText.run, i2]
      exact k2

/-- C80: PostgreSQL refuses a secret of more than 128 bytes: `storeAssociation` raises `IntegrityError` after any calls, and
    the tables stay as they are. -/
theorem c80_long_secret (V : Env) (a n : Str) (g : Good V a n) (hB : V.driver.backend = .postgres) (c : Clock) (ts : Tables)
    (ha : ts.get? (lower a) = none) (hn : ts.get? (lower n) = none) (calls : List Call)
    (hs : ∀ e ∈ calls, ShortOp V.driver.backend e.op) (now : Nat) (url : Str) (x : Assoc) (hx : 128 < x.secret.length)
    (s : State) (h : callInTransaction (createTables V fun _ => none) none ⟨ts, [], []⟩ = (.ok (), s)) :
    (SqlText.step V c (SqlText.run V c s calls).2 (quiet now (.storeAssociation url x))).2 = .error .integrityError ∧
    (SqlText.step V c (SqlText.run V c s calls).2 (quiet now (.storeAssociation url x))).1.tables =
      (SqlText.run V c s calls).2.tables := by
  obtain ⟨s', h1, h2⟩ := create_ok g.toNamed ts ha hn
  rw [h] at h1
  cases h1
  obtain ⟨_, h4⟩ := run_sim g c h2 calls hs
  obtain ⟨k1, k2⟩ := txn_raises (cf := none) (store_long g hB c now url x hx h4)
  exact ⟨k1, k2⟩

/-! An SQLite store with table names of its own, in a database with another table. -/

def sqlEnv (B : Backend) (bytesAsText givesText : Bool) : Env where
  driver := ⟨B, false⟩
  engine := engineOf ⟨B, false⟩ (fun s => s = t!"order" ∨ s = t!"table") bytesAsText givesText
  names := [(t!"associations", t!"oid_associations"), (t!"nonces", t!"My_Nonces")]

theorem sqlEnv_named (B : Backend) (bt gt : Bool) : Named (sqlEnv B bt gt) t!"oid_associations" t!"My_Nonces" where
  engine := rfl
  assocs := rfl
  nonces := rfl
  goodA := by cases B <;> rfl
  goodN := by cases B <;> rfl
  apart := by decide

theorem sqlEnv_good (B : Backend) (gt : Bool) : Good (sqlEnv B true gt) t!"oid_associations" t!"My_Nonces" where
  toNamed := sqlEnv_named B true gt
  text := fun _ => rfl

def otherTables : Tables := [(t!"users", ⟨⟨[(t!"name", .text)], [], []⟩, [[.bytes [65]]]⟩)]

def sqlAssoc : Assoc := ⟨t!"h'); DROP TABLE users; --", [1, 2, 3], 1116177100, 100, t!"HMAC-SHA1"⟩

def sqlCalls : List Call := [
  quiet 1116177120 (.storeAssociation t!"http://op/?a=1&b='" sqlAssoc),
  quiet 1116177121 (.getAssociation t!"http://op/?a=1&b='" none),
  quiet 1116177122 (.useNonce t!"http://op/" 1116177120 t!"salt"),
  quiet 1116177123 (.useNonce t!"http://op/" 1116177120 t!"salt"),
  quiet 1116177124 (.removeAssociation t!"http://op/?a=1&b='" sqlAssoc.handle)]

def sqlStart (V : Env) : State := (callInTransaction (createTables V fun _ => none) none ⟨otherTables, [], []⟩).2

/-- the hypotheses are met on each backend, and the calls do what they should -/
example (B : Backend) (gt : Bool) : (∀ e ∈ sqlCalls, ShortOp (sqlEnv B true gt).driver.backend e.op) ∧ CallsMonotone sqlCalls ∧
    otherTables.get? (lower t!"oid_associations") = none ∧ otherTables.get? (lower t!"My_Nonces") = none := by
  refine ⟨?_, by simp [CallsMonotone, sqlCalls, quiet], rfl, rfl⟩
  intro e he
  simp [sqlCalls, quiet] at he
  rcases he with rfl | rfl | rfl | rfl | rfl <;> simp [ShortOp, ShortSecret, sqlAssoc]

example (B : Backend) (gt : Bool) :
    (SqlText.run (sqlEnv B true gt) ⟨1, by decide⟩ (sqlStart (sqlEnv B true gt)) sqlCalls).1.map (·.2) =
      [.ok .nothing, .ok (.assoc (some sqlAssoc)), .ok (.bool true), .ok (.bool false), .ok (.bool true)] := by
  have hs : ∀ e ∈ sqlCalls, ShortOp (sqlEnv B true gt).driver.backend e.op := by
    intro e he
    simp [sqlCalls, quiet] at he
    rcases he with rfl | rfl | rfl | rfl | rfl <;> simp [ShortOp, ShortSecret, sqlAssoc]
  obtain ⟨s, h1, -, h2, -⟩ := c80_trace _ _ _ (sqlEnv_good B gt) ⟨1, by decide⟩ otherTables rfl rfl sqlCalls hs
  have : sqlStart (sqlEnv B true gt) = s := by rw [sqlStart, h1]
  rw [this, h2]
  show (SqlStore.run ⟨B, false⟩ _ _ _).1.map _ = _
  clear h1 h2 this hs
  cases B <;> decide

/-- the hypotheses of the two refusals are met: psycopg2 under Python 3, and a secret of 129 bytes -/
example : (sqlEnv .postgres false true).driver.backend = .postgres ∧ (sqlEnv .postgres false true).engine.bytesAsText = false ∧
    SendsText ⟨1, by decide⟩ 1116177122 (.useNonce t!"http://op/" 1116177120 t!"salt") ∧
    SendsText ⟨1, by decide⟩ 1116177122 (.getAssociation t!"http://op/" none) ∧
    128 < ({ sqlAssoc with secret := List.replicate 129 7 } : Assoc).secret.length :=
  ⟨rfl, rfl, by unfold SendsText; decide, trivial, by simp⟩

/-- two tables that differ in case only are one table: `createTables` fails -/
example : (callInTransaction (createTables { sqlEnv .sqlite true true with
      names := [(t!"associations", t!"oid"), (t!"nonces", t!"OID")] } fun _ => none) none ⟨[], [], []⟩).1 = .error refused := by
  decide +kernel

/-- a name from `%` in a name of a table is not expanded again -/
example : format [(t!"nonces", t!"%(x)s")] t!"DELETE FROM %(nonces)s WHERE timestamp < %%s;" =
    .ok t!"DELETE FROM %(x)s WHERE timestamp < %s;" := by decide

end Props
