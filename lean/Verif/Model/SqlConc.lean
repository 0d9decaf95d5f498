import Verif.Base.SqlRows
import Verif.Model.SqlStore
/-! # openid/store/sqlstore.py with several connections at once

The operations as programs that send one statement after the other to the database, and the system of any
number of clients doing so, each on a connection of its own, interleaved in any way.  Statements, `commit` and
`rollback` may fail; clients may die anywhere; time only moves forward. -/

namespace SqlConc
open Py Association Store SqlStore SqlRows

/-- the statements that change a table; their texts are in `Model/SqlText` -/
inductive Stmt where
  /-- lines 343, 425 -/
  | replaceAssoc (url : Str) (a : Assoc)
  /-- line 514 -/
  | insertAssoc (url : Str) (a : Assoc)
  /-- line 516 -/
  | updateAssoc (url : Str) (a : Assoc)
  /-- lines 356, 435, 528 -/
  | removeAssoc (url handle : Str)
  /-- lines 359, 438, 531 -/
  | cleanAssocs (seconds : Int)
  /-- lines 361, 440, 533 -/
  | addNonce (k : Str × Int × Str)
  /-- lines 363, 442, 535 -/
  | cleanNonces (limit : Int)

/-- get_assoc_sql (with a handle) and get_assocs_sql -/
structure Query where
  url : Str
  handle : Option Str

/-- the WHERE clauses of the two, lines 347-351, 427-434, 520-528 -/
def Query.matches (q : Query) (row : Str × Assoc) : Bool :=
  match q.handle with
  | some h => isRow q.url h row
  | none => row.1 == q.url

/-- A program and what it asks of the outside: the time, statements, the ends of transactions. -/
inductive Prog (α : Type) where
  | done (r : Except PyErr α)
  | time (k : Nat → Prog α)
  /-- `execute` of a SELECT and `fetchall` -/
  | query (q : Query) (k : Except PyErr (List Assoc) → Prog α)
  /-- `execute` of another statement; the reply is `rowcount` -/
  | exec (s : Stmt) (k : Except PyErr Nat → Prog α)
  | rollback (k : Except PyErr Unit → Prog α)
  | commit (k : Except PyErr Unit → Prog α)

/-- what comes after, whether the first program raises or not -/
def Prog.next : Prog α → (Except PyErr α → Prog β) → Prog β
  | .done r, f => f r
  | .time k, f => .time fun x => (k x).next f
  | .query q k, f => .query q fun x => (k x).next f
  | .exec s k, f => .exec s fun x => (k x).next f
  | .rollback k, f => .rollback fun x => (k x).next f
  | .commit k, f => .commit fun x => (k x).next f

def Prog.bind (p : Prog α) (f : α → Prog β) : Prog β :=
  p.next fun r => match r with
    | .ok a => f a
    | .error e => .done (.error e)

instance : Monad Prog where
  pure a := .done (.ok a)
  bind := Prog.bind

/-- a statement whose exceptions are not caught -/
def run (s : Stmt) : Prog Nat := .exec s .done

/-- openid/store/sqlstore.py:204-216 `txn_storeAssociation`, and 496-512 `PostgreSQLStore.db_set_assoc` -/
def storeAssociation (B : Backend) (url : Str) (a : Assoc) : Prog Unit :=
  if B = .postgres then do
    let rows ← Prog.query ⟨url, some a.handle⟩ .done
    if rows.length = 0 then let _ ← run (.insertAssoc url a) else let _ ← run (.updateAssoc url a)
  else do let _ ← run (.replaceAssoc url a)

/-- openid/store/sqlstore.py:257-267 `txn_removeAssociation` -/
def removeAssociation (url handle : Str) : Prog Bool := do
  let k ← run (.removeAssoc url handle)
  return decide (0 < k)

/-- openid/store/sqlstore.py:239-247, one row; `getExpiresIn` reads the clock -/
def keepRow (c : Clock) (url : Str) (row : Assoc) : Prog (List Assoc) :=
  match Assoc.new row.handle row.secret row.issued row.lifetime row.assocType with
  | .error e => .done (.error e)
  | .ok a => .time fun now =>
    if a.getExpiresIn (c.seconds now) == 0 then do
      let _ ← removeAssociation url a.handle
      return []
    else return [a]

/-- openid/store/sqlstore.py:239-247, the loop -/
def keepRows (c : Clock) (url : Str) : List Assoc → Prog (List Assoc)
  | [] => return []
  | r :: rs => do
    let x ← keepRow c url r
    let y ← keepRows c url rs
    return x ++ y

/-- openid/store/sqlstore.py:220-253 `txn_getAssociation` -/
def getAssociation (c : Clock) (url : Str) (handle : Option Str) : Prog (Option Assoc) := do
  let rows ← Prog.query ⟨url, handle⟩ .done
  let l ← keepRows c url rows
  Prog.done (latest l)

/-- openid/store/sqlstore.py:271-291 `txn_useNonce` -/
def useNonce (c : Clock) (url : Str) (timestamp : Int) (salt : Str) : Prog Bool :=
  .time fun now =>
    if outside c now timestamp then .done (.ok false)
    else .exec (.addNonce (url, timestamp, salt)) fun
      | .ok _ => .done (.ok true)
      | .error e => if e = .integrityError then .done (.ok false) else .done (.error e)

/-- openid/store/sqlstore.py:294-296 -/
def cleanupNonces (c : Clock) : Prog Nat := .time fun now => run (.cleanNonces (c.seconds now - Nonce.SKEW))

/-- openid/store/sqlstore.py:300-302 -/
def cleanupAssociations (c : Clock) : Prog Nat := .time fun now => run (.cleanAssocs (c.seconds now))

/-- the body of an operation -/
def body (D : Driver) (c : Clock) : Op → Prog Answer
  | .storeAssociation url a => do
    storeAssociation D.backend url a
    return .nothing
  | .getAssociation url h => do return .assoc (← getAssociation c url h)
  | .removeAssociation url h => do return .bool (← removeAssociation url h)
  | .useNonce url t salt => do return .bool (← useNonce c url t salt)
  | .cleanupNonces => do return .count (← cleanupNonces c)
  | .cleanupAssociations => do return .count (← cleanupAssociations c)

/-- openid/store/sqlstore.py:184-191: the end of a transaction -/
def atEnd : Except PyErr α → Prog α
  | .error e => .rollback fun
    | .error e' => .done (.error e')
    | .ok () => .done (.error e)
  | .ok a => .commit fun
    | .error e => .done (.error e)
    | .ok () => .done (.ok a)

/-- openid/store/sqlstore.py:171-191 `_callInTransaction`.  (Opening and closing the cursor is taken to be
    local to the client.) -/
def callInTransaction (x : Prog α) : Prog α :=
  .rollback fun
    | .error e => .done (.error e)
    | .ok () => x.next atEnd

/-- openid/store/sqlstore.py:371-381: what `SQLiteStore.useNonce` makes of an exception of the whole call -/
def caught (B : Backend) : Op → Outcome → Outcome
  | .useNonce .., .error (.operationalError true) =>
    if B = .sqlite then .ok (.bool false) else .error (.operationalError true)
  | _, r => r

/-- a whole call of an operation: `_inTxn`, openid/store/sqlstore.py:23-36 -/
def program (D : Driver) (c : Clock) (op : Op) : Prog Answer :=
  (callInTransaction (body D c op)).next fun r => .done (caught D.backend op r)

/-! ## The database -/

/-- the two tables -/
structure Tables where
  assocs : List (Entry (Str × Assoc))
  nonces : List (Entry (Str × Int × Str))

def Tables.empty : Tables := ⟨[], []⟩

def Tables.commit (i : Nat) (db : Tables) : Tables := ⟨SqlRows.commit i db.assocs, SqlRows.commit i db.nonces⟩

def Tables.rollback (i : Nat) (db : Tables) : Tables := ⟨SqlRows.rollback i db.assocs, SqlRows.rollback i db.nonces⟩

/-- what is committed -/
def Tables.committed (db : Tables) : Db := ⟨SqlRows.committed db.assocs, SqlRows.committed db.nonces⟩

/-- what a SELECT of transaction `i` finds -/
def Query.find (q : Query) (i : Nat) (db : Tables) : List Assoc := (select i q.matches db.assocs).map (·.2)

/-- A statement of transaction `i`: what it replies and leaves, or nothing while it has to wait for another
    transaction.  The keys are those of the CREATE TABLE statements, lines 321-341, 401-423, 473-494. -/
def Stmt.perform (D : Driver) (i : Nat) (db : Tables) : Stmt → Option (Except PyErr Nat × Tables)
  | .replaceAssoc url a =>
    (replace i (sameKey D.backend url a.handle) (url, a) db.assocs).map fun l => (.ok 1, { db with assocs := l })
  | .insertAssoc url a =>
    (SqlRows.insert i (sameKey D.backend url a.handle) (url, a) db.assocs).map fun (l, b) =>
      (if b then .ok 1 else .error .integrityError, { db with assocs := l })
  | .updateAssoc url a =>
    (update i (isRow url a.handle) (fun r => (r.1, { a with handle := r.2.handle })) db.assocs).map fun (l, n) =>
      (.ok n, { db with assocs := l })
  | .removeAssoc url h =>
    (delete i (isRow url h) db.assocs).map fun (l, n) => (.ok n, { db with assocs := l })
  | .cleanAssocs s =>
    (delete i (fun r => decide (r.2.issued + r.2.lifetime < s)) db.assocs).map fun (l, n) =>
      (.ok n, { db with assocs := l })
  | .addNonce k =>
    (SqlRows.insert i (sameNonce D.backend k) k db.nonces).map fun (l, b) =>
      (if b then .ok 1 else .error D.notUnique, { db with nonces := l })
  | .cleanNonces limit =>
    (delete i (fun k => decide (k.2.1 < limit)) db.nonces).map fun (l, n) => (.ok n, { db with nonces := l })

/-! ## The system -/

/-- a client in the middle of an operation: the operation, when it was called, and what is left to do -/
structure Client where
  op : Op
  since : Nat
  todo : Prog Answer

/-- a call that returned: the operation, when it was called, and what came back -/
abbrev Returned := Op × Nat × Outcome

structure Config where
  db : Tables
  clock : Nat
  clients : Nat → Option Client
  started : List Op
  returned : List Returned

def Config.init : Config := ⟨Tables.empty, 0, fun _ => none, [], []⟩

def Config.put (cfg : Config) (i : Nat) (x : Option Client) : Config :=
  { cfg with clients := fun j => if j = i then x else cfg.clients j }

/-- What a database may look like after a statement of transaction `i` failed: as before, or with the
    transaction rolled back. -/
inductive Failed (i : Nat) (db : Tables) : Tables → Prop where
  | same : Failed i db db
  | aborted : Failed i db (db.rollback i)

/-- One step of the whole system.  `allowed` restricts when a client may go on; it is used to state an
    assumption on the schedule. -/
inductive Step (D : Driver) (c : Clock) (allowed : Config → Client → Prop) : Config → Config → Prop where
  /-- time passes -/
  | tick (cfg : Config) (t : Nat) (h : cfg.clock ≤ t) : Step D c allowed cfg { cfg with clock := t }
  /-- an idle client calls an operation -/
  | start (cfg : Config) (i : Nat) (op : Op) (h : cfg.clients i = none) :
      Step D c allowed cfg
        { cfg.put i (some ⟨op, cfg.clock, program D c op⟩) with started := op :: cfg.started }
  /-- a client reads the clock -/
  | time (cfg : Config) (i : Nat) (op : Op) (s : Nat) (k : Nat → Prog Answer)
      (h : cfg.clients i = some ⟨op, s, .time k⟩) :
      Step D c allowed cfg (cfg.put i (some ⟨op, s, k cfg.clock⟩))
  | query (cfg : Config) (i : Nat) (op : Op) (s : Nat) (q : Query) (k : Except PyErr (List Assoc) → Prog Answer)
      (h : cfg.clients i = some ⟨op, s, .query q k⟩) :
      Step D c allowed cfg (cfg.put i (some ⟨op, s, k (.ok (q.find i cfg.db))⟩))
  | queryFails (cfg : Config) (i : Nat) (op : Op) (s : Nat) (q : Query)
      (k : Except PyErr (List Assoc) → Prog Answer) (e : PyErr) (db : Tables)
      (h : cfg.clients i = some ⟨op, s, .query q k⟩) (hd : Failed i cfg.db db) :
      Step D c allowed cfg { cfg.put i (some ⟨op, s, k (.error e)⟩) with db := db }
  /-- a statement, when it need not wait -/
  | exec (cfg : Config) (i : Nat) (op : Op) (s : Nat) (st : Stmt) (k : Except PyErr Nat → Prog Answer)
      (r : Except PyErr Nat) (db : Tables) (h : cfg.clients i = some ⟨op, s, .exec st k⟩)
      (ha : allowed cfg ⟨op, s, .exec st k⟩) (hx : st.perform D i cfg.db = some (r, db)) :
      Step D c allowed cfg { cfg.put i (some ⟨op, s, k r⟩) with db := db }
  | execFails (cfg : Config) (i : Nat) (op : Op) (s : Nat) (st : Stmt) (k : Except PyErr Nat → Prog Answer)
      (e : PyErr) (db : Tables) (h : cfg.clients i = some ⟨op, s, .exec st k⟩) (hd : Failed i cfg.db db) :
      Step D c allowed cfg { cfg.put i (some ⟨op, s, k (.error e)⟩) with db := db }
  | rollback (cfg : Config) (i : Nat) (op : Op) (s : Nat) (k : Except PyErr Unit → Prog Answer)
      (h : cfg.clients i = some ⟨op, s, .rollback k⟩) :
      Step D c allowed cfg { cfg.put i (some ⟨op, s, k (.ok ())⟩) with db := cfg.db.rollback i }
  | rollbackFails (cfg : Config) (i : Nat) (op : Op) (s : Nat) (k : Except PyErr Unit → Prog Answer) (e : PyErr)
      (db : Tables) (h : cfg.clients i = some ⟨op, s, .rollback k⟩) (hd : Failed i cfg.db db) :
      Step D c allowed cfg { cfg.put i (some ⟨op, s, k (.error e)⟩) with db := db }
  | commit (cfg : Config) (i : Nat) (op : Op) (s : Nat) (k : Except PyErr Unit → Prog Answer)
      (h : cfg.clients i = some ⟨op, s, .commit k⟩) :
      Step D c allowed cfg { cfg.put i (some ⟨op, s, k (.ok ())⟩) with db := cfg.db.commit i }
  | commitFails (cfg : Config) (i : Nat) (op : Op) (s : Nat) (k : Except PyErr Unit → Prog Answer) (e : PyErr)
      (db : Tables) (h : cfg.clients i = some ⟨op, s, .commit k⟩) (hd : Failed i cfg.db db) :
      Step D c allowed cfg { cfg.put i (some ⟨op, s, k (.error e)⟩) with db := db }
  /-- the commit was made but the client did not get to hear of it -/
  | commitUnheard (cfg : Config) (i : Nat) (op : Op) (s : Nat) (k : Except PyErr Unit → Prog Answer) (e : PyErr)
      (h : cfg.clients i = some ⟨op, s, .commit k⟩) :
      Step D c allowed cfg { cfg.put i (some ⟨op, s, k (.error e)⟩) with db := cfg.db.commit i }
  /-- a call returns -/
  | finish (cfg : Config) (i : Nat) (op : Op) (s : Nat) (r : Outcome)
      (h : cfg.clients i = some ⟨op, s, .done r⟩) :
      Step D c allowed cfg { cfg.put i none with returned := (op, s, r) :: cfg.returned }
  /-- a client dies, or its connection is lost; the database rolls its transaction back -/
  | crash (cfg : Config) (i : Nat) :
      Step D c allowed cfg { cfg.put i none with db := cfg.db.rollback i }

/-- the configurations the system can get into -/
inductive Reachable (D : Driver) (c : Clock) (allowed : Config → Client → Prop) : Config → Prop where
  | init : Reachable D c allowed Config.init
  | step {a b : Config} (h : Reachable D c allowed a) (h' : Step D c allowed a b) : Reachable D c allowed b

end SqlConc
