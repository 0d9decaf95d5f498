import Verif.Base.Utf8
import Verif.Model.Nonce
import Verif.Spec.Store
/-! # Model of openid/store/sqlstore.py

The database is a pair of tables with their uniqueness constraints, and a connection is the committed
database plus the working copy of the open transaction.  Transactions of different connections are atomic
with respect to each other (serialisable isolation).  Every statement may raise: `Fault` says which.

Simplifications: the data types and lengths of the columns (`VARCHAR(255)`, `CHAR(40)`, 32 bit integers)
and the collations are not modelled.  The statements are here as operations on the two tables; `Model/SqlText` has their
texts, and theorem `Props.c80_trace` says that they are these operations. -/

namespace SqlStore
open Py Association Store

/-- openid/store/sqlstore.py:307, 384, 453: the three subclasses -/
inductive Backend where
  | sqlite | mysql | postgres
  deriving DecidableEq

/-- What the primary keys see of a URL: MySQL looks at the first 255 bytes (`server_url(255)`, lines 406
    and 420), the others at all of it (lines 326, 339, 478, 491). -/
def Backend.urlKey : Backend → Str → Bytes
  | .mysql, u => (Utf8.encode u).take 255
  | _, u => Utf8.encode u

/-- the two tables: lines 321-341, 401-423, 473-494 -/
structure Db where
  assocs : List (Str × Assoc)
  nonces : List (Str × Int × Str)
  deriving DecidableEq

def Db.empty : Db := ⟨[], []⟩

/-- what happens to the n-th statement of an operation: it works, or raises before having any effect -/
abbrev Fault := Nat → Option PyErr

/-- the open cursor: working copy of the database, statements executed so far, and `rowcount` -/
structure Cur where
  db : Db
  n : Nat
  rowcount : Nat

/-- a computation inside a transaction -/
def Txn (α : Type) := Cur → Except PyErr α × Cur

def Txn.pure (a : α) : Txn α := fun c => (.ok a, c)

def Txn.bind (x : Txn α) (f : α → Txn β) : Txn β := fun c =>
  match x c with
  | (.ok a, c') => f a c'
  | (.error e, c') => (.error e, c')

instance : Monad Txn where
  pure := Txn.pure
  bind := Txn.bind

def Txn.raise (e : PyErr) : Txn α := fun c => (.error e, c)

/-- `try: x except <caught>: return a` -/
def Txn.except (x : Txn α) (caught : PyErr → Bool) (a : α) : Txn α := fun c =>
  match x c with
  | (.ok b, c') => (.ok b, c')
  | (.error e, c') => if caught e then (.ok a, c') else (.error e, c')

/-- `cur.execute`, lines 142-155, of a statement that changes a table -/
def execute (fault : Fault) (stmt : Db → Except PyErr (Db × Nat)) : Txn Unit := fun c =>
  match fault c.n with
  | some e => (.error e, { c with n := c.n + 1 })
  | none => match stmt c.db with
    | .error e => (.error e, { c with n := c.n + 1 })
    | .ok (db, k) => (.ok (), ⟨db, c.n + 1, k⟩)

/-- `cur.execute` of a SELECT followed by `cur.fetchall()` -/
def select (fault : Fault) (q : Db → List α) : Txn (List α) := fun c =>
  match fault c.n with
  | some e => (.error e, { c with n := c.n + 1 })
  | none => (.ok (q c.db), { c with n := c.n + 1 })

def getRowcount : Txn Nat := fun c => (.ok c.rowcount, c)

/-- the row's primary key equals (url, handle) -/
def sameKey (B : Backend) (url handle : Str) (row : Str × Assoc) : Bool :=
  B.urlKey row.1 == B.urlKey url && row.2.handle == handle

/-- `INSERT OR REPLACE` line 343, `REPLACE INTO` line 425 -/
def replaceInto (B : Backend) (url : Str) (a : Assoc) (db : Db) : Except PyErr (Db × Nat) :=
  .ok ({ db with assocs := db.assocs.filter (fun r => !sameKey B url a.handle r) ++ [(url, a)] }, 1)

/-- `INSERT INTO` line 514 -/
def insertInto (B : Backend) (url : Str) (a : Assoc) (db : Db) : Except PyErr (Db × Nat) :=
  if db.assocs.any (sameKey B url a.handle) then .error .integrityError
  else .ok ({ db with assocs := db.assocs ++ [(url, a)] }, 1)

/-- the WHERE clause `server_url = ? AND handle = ?` -/
def isRow (url handle : Str) (row : Str × Assoc) : Bool := row.1 == url && row.2.handle == handle

/-- `UPDATE ... SET secret, issued, lifetime, assoc_type WHERE`, line 516 -/
def updateRow (url : Str) (a : Assoc) (db : Db) : Except PyErr (Db × Nat) :=
  .ok ({ db with assocs := db.assocs.map fun r =>
          if isRow url a.handle r then (r.1, { a with handle := r.2.handle }) else r },
    (db.assocs.filter (isRow url a.handle)).length)

/-- `DELETE FROM associations WHERE` some condition -/
def deleteRows (p : Str × Assoc → Bool) (db : Db) : Except PyErr (Db × Nat) :=
  .ok ({ db with assocs := db.assocs.filter fun r => !p r }, (db.assocs.filter p).length)

/-- get_assoc_sql, lines 349, 432, 525 -/
def selectOne (url handle : Str) (db : Db) : List Assoc := (db.assocs.filter (isRow url handle)).map (·.2)

/-- get_assocs_sql, lines 347, 427, 520 -/
def selectAll (url : Str) (db : Db) : List Assoc := (db.assocs.filter fun r => r.1 == url).map (·.2)

/-- two nonces the primary key does not tell apart -/
def sameNonce (B : Backend) (a b : Str × Int × Str) : Bool :=
  B.urlKey a.1 == B.urlKey b.1 && a.2 == b.2

/-- What a violated uniqueness constraint raises: `IntegrityError`, or with older SQLite wrappers an
    `OperationalError` with a particular text (lines 371-381). -/
structure Driver where
  backend : Backend
  oldSqlite : Bool

def Driver.notUnique (D : Driver) : PyErr :=
  if D.backend = .sqlite ∧ D.oldSqlite then .operationalError true else .integrityError

/-- add_nonce_sql, lines 361, 440, 533 -/
def insertNonce (D : Driver) (k : Str × Int × Str) (db : Db) : Except PyErr (Db × Nat) :=
  if db.nonces.any (sameNonce D.backend k) then .error D.notUnique
  else .ok ({ db with nonces := db.nonces ++ [k] }, 1)

/-- clean_nonce_sql, lines 363, 442, 535 -/
def cleanNonces (limit : Int) (db : Db) : Except PyErr (Db × Nat) :=
  .ok ({ db with nonces := db.nonces.filter fun k => !decide (k.2.1 < limit) },
    (db.nonces.filter fun k => decide (k.2.1 < limit)).length)

/-- openid/store/sqlstore.py:496-512 `PostgreSQLStore.db_set_assoc` -/
def postgresSetAssoc (f : Fault) (url : Str) (a : Assoc) : Txn Unit := do
  let rows ← select f (selectOne url a.handle)
  if rows.length = 0 then execute f (insertInto .postgres url a) else execute f (updateRow url a)

/-- openid/store/sqlstore.py:204-216 `txn_storeAssociation` -/
def txnStoreAssociation (B : Backend) (f : Fault) (url : Str) (a : Assoc) : Txn Unit :=
  if B = .postgres then postgresSetAssoc f url a else execute f (replaceInto B url a)

/-- openid/store/sqlstore.py:257-267 `txn_removeAssociation` -/
def txnRemoveAssociation (f : Fault) (url handle : Str) : Txn Bool := do
  execute f (deleteRows (isRow url handle))
  let k ← getRowcount
  return decide (0 < k)

/-- openid/store/sqlstore.py:239-247, one row -/
def keepRow (f : Fault) (seconds : Int) (url : Str) (row : Assoc) : Txn (List Assoc) :=
  match Assoc.new row.handle row.secret row.issued row.lifetime row.assocType with
  | .error e => .raise e
  | .ok a =>
    if a.getExpiresIn seconds == 0 then do
      let _ ← txnRemoveAssociation f url a.handle
      return []
    else return [a]

/-- openid/store/sqlstore.py:239-247, the loop -/
def keepRows (f : Fault) (seconds : Int) (url : Str) : List Assoc → Txn (List Assoc)
  | [] => return []
  | r :: rs => do
    let x ← keepRow f seconds url r
    let y ← keepRows f seconds url rs
    return x ++ y

/-- openid/store/sqlstore.py:249-250 and openid/store/filestore.py:252-256: sort the pairs
    `(issued, association)` and take the last.  Under Python 3 comparing two different associations raises
    `TypeError`, and sorting compares some two entries of the same issue time when there are any. -/
def latest (l : List Assoc) : Except PyErr (Option Assoc) :=
  if l.any fun a => l.any fun b => a.issued == b.issued && a != b then .error .typeError
  else .ok (sortBy (fun a b => decide (a.issued ≤ b.issued)) l).getLast?

def Txn.ofExcept (x : Except PyErr α) : Txn α := fun c => (x, c)

/-- openid/store/sqlstore.py:229-234 -/
def fetchRows (f : Fault) (url : Str) : Option Str → Txn (List Assoc)
  | some h => select f (selectOne url h)
  | none => select f (selectAll url)

/-- openid/store/sqlstore.py:220-253 `txn_getAssociation` -/
def txnGetAssociation (f : Fault) (seconds : Int) (url : Str) (handle : Option Str) :
    Txn (Option Assoc) := do
  let rows ← fetchRows f url handle
  let l ← keepRows f seconds url rows
  Txn.ofExcept (latest l)

/-- openid/store/sqlstore.py:280: `abs(timestamp - time.time()) > SKEW`, in ticks -/
def outside (c : Clock) (now : Nat) (timestamp : Int) : Bool :=
  (timestamp * c.tick - now).natAbs > (Nonce.SKEW * c.tick).natAbs

/-- openid/store/sqlstore.py:271-291 `txn_useNonce` -/
def txnUseNonce (D : Driver) (c : Clock) (f : Fault) (now : Nat) (url : Str) (timestamp : Int) (salt : Str) :
    Txn Bool :=
  if outside c now timestamp then return false
  else Txn.except (do execute f (insertNonce D (url, timestamp, salt)); return true)
        (fun e => e = .integrityError) false

/-- openid/store/sqlstore.py:294-296 -/
def txnCleanupNonces (c : Clock) (f : Fault) (now : Nat) : Txn Nat := do
  execute f (cleanNonces (c.seconds now - Nonce.SKEW))
  getRowcount

/-- openid/store/sqlstore.py:300-302 -/
def txnCleanupAssociations (c : Clock) (f : Fault) (now : Nat) : Txn Nat := do
  execute f (deleteRows fun r => decide (r.2.issued + r.2.lifetime < c.seconds now))
  getRowcount

/-- a connection: what the database has committed, and the transaction's uncommitted view -/
structure Conn where
  committed : Db
  working : Db

/-- `conn.rollback()` -/
def Conn.rollback (conn : Conn) : Conn := { conn with working := conn.committed }

/-- `conn.commit()` when it succeeds -/
def Conn.commit (conn : Conn) : Conn := { conn with committed := conn.working }

/-- openid/store/sqlstore.py:171-191 `_callInTransaction`.  `commitFault` is what `commit` raises, if it
    fails (without effect). -/
def callInTransaction (x : Txn α) (commitFault : Option PyErr) (conn : Conn) : Except PyErr α × Conn :=
  let conn := conn.rollback
  match x ⟨conn.working, 0, 0⟩ with
  | (.error e, cur) => (.error e, { conn with working := cur.db }.rollback)
  | (.ok a, cur) => match commitFault with
    | some e => (.error e, { conn with working := cur.db })
    | none => (.ok a, { conn with working := cur.db }.commit)

/-- the transaction of one operation -/
def txn (D : Driver) (c : Clock) (f : Fault) (now : Nat) : Op → Txn Answer
  | .storeAssociation url a => do
    txnStoreAssociation D.backend f url a
    return .nothing
  | .getAssociation url h => do return .assoc (← txnGetAssociation f (c.seconds now) url h)
  | .removeAssociation url h => do return .bool (← txnRemoveAssociation f url h)
  | .useNonce url t salt => do return .bool (← txnUseNonce D c f now url t salt)
  | .cleanupNonces => do return .count (← txnCleanupNonces c f now)
  | .cleanupAssociations => do return .count (← txnCleanupAssociations c f now)

/-- the same for a whole call: `_inTxn`, lines 23-36, and for SQLite lines 371-381 -/
def sqliteCatch (B : Backend) : Op → Outcome × Conn → Outcome × Conn
  | .useNonce .., (.error (.operationalError true), conn) =>
    if B = .sqlite then (.ok (.bool false), conn) else (.error (.operationalError true), conn)
  | _, r => r

/-- one call by some client: time, operation, and the faults the database shows during it -/
structure Call where
  now : Nat
  op : Op
  fault : Fault
  commitFault : Option PyErr

def call (D : Driver) (c : Clock) (conn : Conn) (e : Call) : Outcome × Conn :=
  sqliteCatch D.backend e.op (callInTransaction (txn D c e.fault e.now e.op) e.commitFault conn)

/-- One call on a database shared by any number of clients: a fresh or reused connection sees the committed
    database and an arbitrary leftover `working`, which `rollback` drops. -/
def step (D : Driver) (c : Clock) (db : Db) (e : Call) : Db × Outcome :=
  ((call D c ⟨db, db⟩ e).2.committed, (call D c ⟨db, db⟩ e).1)

/-- the trace of a sequence of calls, and the database after it -/
def run (D : Driver) (c : Clock) : Db → List Call → Trace × Db
  | db, [] => ([], db)
  | db, e :: r =>
    let (db', o) := step D c db e
    let (tr, db'') := run D c db' r
    (((e.now, e.op), o) :: tr, db'')

end SqlStore
