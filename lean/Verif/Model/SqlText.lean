import Verif.Base.Sql
import Verif.Model.SqlStore
/-! # Model of openid/store/sqlstore.py down to the texts of its statements

`Model/SqlStore` has the operations of the stores on two typed tables.  Here are the statements themselves: their texts,
the table names put into them, the arguments handed to the driver and what is made of the rows it gives back.  What a
database does with them is `Base/Sql`. -/

namespace SqlText
open Py Association Store SqlStore

/-- openid/store/sqlstore.py:321-363 `SQLiteStore`, the attributes that end in `_sql` -/
def sqliteStatements : Dict Str Str := [
  (t!"create_nonce_sql", t!"
    CREATE TABLE %(nonces)s (
        server_url VARCHAR,
        timestamp INTEGER,
        salt CHAR(40),
        UNIQUE(server_url, timestamp, salt)
    );
    "),
  (t!"create_assoc_sql", t!"
    CREATE TABLE %(associations)s
    (
        server_url VARCHAR(2047),
        handle VARCHAR(255),
        secret BLOB(128),
        issued INTEGER,
        lifetime INTEGER,
        assoc_type VARCHAR(64),
        PRIMARY KEY (server_url, handle)
    );
    "),
  (t!"set_assoc_sql",
    t!"INSERT OR REPLACE INTO %(associations)s (server_url, handle, secret, issued, lifetime, assoc_type) VALUES (?, ?, ?, ?, ?, ?);"),
  (t!"get_assocs_sql",
    t!"SELECT handle, secret, issued, lifetime, assoc_type FROM %(associations)s WHERE server_url = ?;"),
  (t!"get_assoc_sql",
    t!"SELECT handle, secret, issued, lifetime, assoc_type FROM %(associations)s WHERE server_url = ? AND handle = ?;"),
  (t!"get_expired_sql", t!"SELECT server_url FROM %(associations)s WHERE issued + lifetime < ?;"),
  (t!"remove_assoc_sql", t!"DELETE FROM %(associations)s WHERE server_url = ? AND handle = ?;"),
  (t!"clean_assoc_sql", t!"DELETE FROM %(associations)s WHERE issued + lifetime < ?;"),
  (t!"add_nonce_sql", t!"INSERT INTO %(nonces)s VALUES (?, ?, ?);"),
  (t!"clean_nonce_sql", t!"DELETE FROM %(nonces)s WHERE timestamp < ?;")]

/-- openid/store/sqlstore.py:427-442, 520-535: the statements that MySQL and PostgreSQL have in common -/
def formatStatements : Dict Str Str := [
  (t!"get_assocs_sql",
    t!"SELECT handle, secret, issued, lifetime, assoc_type FROM %(associations)s WHERE server_url = %%s;"),
  (t!"get_expired_sql", t!"SELECT server_url FROM %(associations)s WHERE issued + lifetime < %%s;"),
  (t!"get_assoc_sql",
    t!"SELECT handle, secret, issued, lifetime, assoc_type FROM %(associations)s WHERE server_url = %%s AND handle = %%s;"),
  (t!"remove_assoc_sql", t!"DELETE FROM %(associations)s WHERE server_url = %%s AND handle = %%s;"),
  (t!"clean_assoc_sql", t!"DELETE FROM %(associations)s WHERE issued + lifetime < %%s;"),
  (t!"add_nonce_sql", t!"INSERT INTO %(nonces)s VALUES (%%s, %%s, %%s);"),
  (t!"clean_nonce_sql", t!"DELETE FROM %(nonces)s WHERE timestamp < %%s;")]

/-- openid/store/sqlstore.py:401-442 `MySQLStore`, the attributes that end in `_sql` -/
def mysqlStatements : Dict Str Str := [
  (t!"create_nonce_sql", t!"
    CREATE TABLE %(nonces)s (
        server_url BLOB NOT NULL,
        timestamp INTEGER NOT NULL,
        salt CHAR(40) NOT NULL,
        PRIMARY KEY (server_url(255), timestamp, salt)
    )
    ENGINE=InnoDB;
    "),
  (t!"create_assoc_sql", t!"
    CREATE TABLE %(associations)s
    (
        server_url BLOB NOT NULL,
        handle VARCHAR(255) NOT NULL,
        secret BLOB NOT NULL,
        issued INTEGER NOT NULL,
        lifetime INTEGER NOT NULL,
        assoc_type VARCHAR(64) NOT NULL,
        PRIMARY KEY (server_url(255), handle)
    )
    ENGINE=InnoDB;
    "),
  (t!"set_assoc_sql", t!"REPLACE INTO %(associations)s VALUES (%%s, %%s, %%s, %%s, %%s, %%s);")]
  ++ formatStatements

/-- openid/store/sqlstore.py:473-535 `PostgreSQLStore`, the attributes that end in `_sql` -/
def postgresStatements : Dict Str Str := [
  (t!"create_nonce_sql", t!"
    CREATE TABLE %(nonces)s (
        server_url VARCHAR(2047) NOT NULL,
        timestamp INTEGER NOT NULL,
        salt CHAR(40) NOT NULL,
        PRIMARY KEY (server_url, timestamp, salt)
    );
    "),
  (t!"create_assoc_sql", t!"
    CREATE TABLE %(associations)s
    (
        server_url VARCHAR(2047) NOT NULL,
        handle VARCHAR(255) NOT NULL,
        secret BYTEA NOT NULL,
        issued INTEGER NOT NULL,
        lifetime INTEGER NOT NULL,
        assoc_type VARCHAR(64) NOT NULL,
        PRIMARY KEY (server_url, handle),
        CONSTRAINT secret_length_constraint CHECK (LENGTH(secret) <= 128)
    );
    "),
  (t!"new_assoc_sql", t!"INSERT INTO %(associations)s VALUES (%%s, %%s, %%s, %%s, %%s, %%s);"),
  (t!"update_assoc_sql",
    t!"UPDATE %(associations)s SET secret = %%s, issued = %%s, lifetime = %%s, assoc_type = %%s WHERE server_url = %%s AND handle = %%s;")]
  ++ formatStatements

/-- the attributes of the three subclasses -/
def statements : Backend → Dict Str Str
  | .sqlite => sqliteStatements
  | .mysql => mysqlStatements
  | .postgres => postgresStatements

/-! ## The constructor -/

/-- openid/oidutil.py:153-164 `string_to_text` of a text or `None` -/
def textOrNone : Option Str → Except PyErr Str
  | some s => .ok s
  | none => .error .assertionError

/-- openid/store/sqlstore.py:102-109: the names of the tables; `None` is the default of both arguments -/
def tableNames (associations nonces : Option Str) : Except PyErr (Dict Str Str) := do
  let a ← textOrNone associations
  let n ← textOrNone nonces
  return [(t!"associations", if a = [] then t!"oid_associations" else a),
          (t!"nonces", if n = [] then t!"oid_nonces" else n)]

/-- openid/store/sqlstore.py:115-120: where the exception classes come from.  `conn` says whether the connection has
    them, `classAttr` whether the module in the class attribute `exceptions` has; `none` for a class without that
    attribute (`SQLiteStore`), where `__getattr__` raises. -/
def checkExceptions (conn : Bool) (classAttr : Option Bool) : Except PyErr Unit :=
  if conn then .ok ()
  else match classAttr with
    | none => .error .attributeError
    | some true => .ok ()
    | some false => .error .runtimeError

/-- openid/store/sqlstore.py:73-120 `SQLStore.__init__`: the table names kept -/
def init (conn : Bool) (classAttr : Option Bool) (associations nonces : Option Str) : Except PyErr (Dict Str Str) := do
  let names ← tableNames associations nonces
  checkExceptions conn classAttr
  return names

/-! ## Statements with the table names -/

/-- where `sql % names` is: in the text, after a `%`, inside a `%(key`, or at the conversion type -/
inductive Fmt where
  | plain
  | percent
  | key (k : Str)
  | conv (v : Str)

/-- Python's `%` with a dictionary of texts, for `%%` and `%(key)s`; everything else is refused (no statement has it) -/
def fmtGo (names : Dict Str Str) : Fmt → Str → Except PyErr Str
  | .plain, [] => .ok []
  | _, [] => .error .valueError
  | .plain, c :: r =>
    if c = '%' then fmtGo names .percent r else do return c :: (← fmtGo names .plain r)
  | .percent, c :: r =>
    if c = '%' then do return '%' :: (← fmtGo names .plain r)
    else if c = '(' then fmtGo names (.key []) r
    else .error .valueError
  | .key k, c :: r =>
    if c = ')' then
      match names.get? k with
      | none => .error .keyError
      | some v => fmtGo names (.conv v) r
    else fmtGo names (.key (k ++ [c])) r
  | .conv v, c :: r => if c = 's' then do return v ++ (← fmtGo names .plain r) else .error .valueError

/-- `sql % names` -/
def format (names : Dict Str Str) (sql : Str) : Except PyErr Str := fmtGo names .plain sql

/-- what the cursor, the store's cache and the working copy of the database hold; `sent` lists what was handed to
    `cursor.execute` -/
structure Cursor where
  tables : Sql.Tables
  n : Nat
  rowcount : Nat
  rows : List (List Sql.Val)
  cache : Dict Str Str
  sent : List (Str × List Sql.Val)

/-- a computation with an open cursor -/
def Run (α : Type) := Cursor → Except PyErr α × Cursor

def Run.pure (a : α) : Run α := fun c => (.ok a, c)

def Run.bind (x : Run α) (f : α → Run β) : Run β := fun c =>
  match x c with
  | (.ok a, c') => f a c'
  | (.error e, c') => (.error e, c')

instance : Monad Run where
  pure := Run.pure
  bind := Run.bind

def Run.raise (e : PyErr) : Run α := fun c => (.error e, c)

def Run.ofExcept (x : Except PyErr α) : Run α := fun c => (x, c)

/-- `try: x except <caught>: return a` -/
def Run.except (x : Run α) (caught : PyErr → Bool) (a : α) : Run α := fun c =>
  match x c with
  | (.ok b, c') => (.ok b, c')
  | (.error e, c') => if caught e then (.ok a, c') else (.error e, c')

/-- The store and its surroundings: the driver and the database, and the names of the tables. -/
structure Env where
  driver : Driver
  engine : Sql.Engine
  names : Dict Str Str

/-- The database behind a store: what `Driver` says of it, and the parameter style its statements are written in. -/
def engineOf (D : Driver) (reserved : Str → Bool) (bytesAsText givesText : Bool) : Sql.Engine where
  style := if D.backend = .sqlite then .qmark else .format
  reserved := reserved
  notUnique := D.notUnique
  strict := D.backend = .postgres
  bytesAsText := bytesAsText
  givesText := givesText

/-- `getattr(self, sql_name)`, with openid/store/sqlstore.py:157-169 `__getattr__` for a missing one, and line 138 -/
def makeSQL (B : Backend) (names : Dict Str Str) (name : Str) : Except PyErr Str :=
  match (statements B).get? name with
  | none => .error .attributeError
  | some sql => format names sql

/-- openid/store/sqlstore.py:133-140 `_getSQL` -/
def getSQL (V : Env) (name : Str) : Run Str := fun c =>
  match c.cache.get? name with
  | some sql => (.ok sql, c)
  | none => match makeSQL V.driver.backend V.names name with
    | .error e => (.error e, c)
    | .ok sql => (.ok sql, { c with cache := c.cache.set name sql })

/-- openid/store/sqlstore.py:149-153 `unicode_to_str` -/
def toBytes : Sql.Val → Sql.Val
  | .text s => .bytes (Utf8.encode s)
  | v => v

/-- `self.cur.execute(sql, args)`; the rows wait for `fetchall` -/
def execute (V : Env) (f : Fault) (sql : Str) (args : List Sql.Val) : Run Unit := fun c =>
  let c := { c with n := c.n + 1, sent := c.sent ++ [(sql, args)] }
  match f (c.n - 1) with
  | some e => (.error e, c)
  | none => match Sql.exec V.engine c.tables sql args with
    | .error e => (.error e, c)
    | .ok d => (.ok (), { c with tables := d.tables, rowcount := d.rowcount, rows := d.rows })

/-- openid/store/sqlstore.py:142-155 `_execSQL` -/
def execSQL (V : Env) (f : Fault) (name : Str) (args : List Sql.Val) : Run Unit := do
  let sql ← getSQL V name
  execute V f sql (args.map toBytes)

/-- openid/store/sqlstore.py:157-169: `self.db_<name>(*args)` for a name without a method -/
def db (V : Env) (f : Fault) (name : Str) (args : List Sql.Val) : Run Unit :=
  execSQL V f (name ++ t!"_sql") args

/-- `self.cur.fetchall()` -/
def fetchall : Run (List (List Sql.Val)) := fun c => (.ok c.rows, { c with rows := [] })

/-- `self.cur.rowcount` -/
def getRowcount : Run Nat := fun c => (.ok c.rowcount, c)

/-! ## The operations -/

/-- openid/store/sqlstore.py:193-200 `txn_createTables` -/
def createTables (V : Env) (f : Fault) : Run Unit := do
  db V f t!"create_nonce" []
  db V f t!"create_assoc" []

/-- openid/store/sqlstore.py:128-131, 368-369, 537-543 `blobEncode` -/
def blobEncode (B : Backend) (s : Bytes) : Sql.Val := if B = .mysql then .bytes s else .blob s

/-- openid/store/sqlstore.py:122-126, 365-366, 444-450 `blobDecode` of what a driver gives for a binary column -/
def blobDecode : Sql.Val → Except PyErr Bytes
  | .bytes b | .blob b => .ok b
  | _ => .error .typeError

/-- openid/store/sqlstore.py:496-512 `PostgreSQLStore.db_set_assoc`, and `set_assoc_sql` of the others -/
def setAssoc (V : Env) (f : Fault) (url handle secret issued lifetime assocType : Sql.Val) : Run Unit :=
  if V.driver.backend = .postgres then do
    db V f t!"get_assoc" [url, handle]
    let rows ← fetchall
    if rows.length ≠ 0 then db V f t!"update_assoc" [secret, issued, lifetime, assocType, url, handle]
    else db V f t!"new_assoc" [url, handle, secret, issued, lifetime, assocType]
  else db V f t!"set_assoc" [url, handle, secret, issued, lifetime, assocType]

/-- openid/store/sqlstore.py:204-217 `txn_storeAssociation` -/
def storeAssociation (V : Env) (f : Fault) (url : Str) (a : Assoc) : Run Unit :=
  setAssoc V f (.text url) (.text a.handle) (blobEncode V.driver.backend a.secret) (.int a.issued) (.int a.lifetime)
    (.text a.assocType)

/-- openid/store/sqlstore.py:257-267 `txn_removeAssociation` -/
def removeAssociation (V : Env) (f : Fault) (url handle : Str) : Run Bool := do
  db V f t!"remove_assoc" [.text url, .text handle]
  let k ← getRowcount
  return decide (0 < k)

/-- openid/oidutil.py:153-164 `string_to_text` -/
def toText : Sql.Val → Except PyErr Str
  | .text s => .ok s
  | .bytes b => Utf8.decode b
  | _ => .error .assertionError

def toInt : Sql.Val → Except PyErr Int
  | .int n => .ok n
  | _ => .error .typeError

/-- openid/store/sqlstore.py:241-243: the association of a row -/
def rowAssoc : List Sql.Val → Except PyErr Assoc
  | [handle, secret, issued, lifetime, assocType] => do
    let s ← blobDecode secret
    let h ← toText handle
    let i ← toInt issued
    let l ← toInt lifetime
    let t ← toText assocType
    Assoc.new h s i l t
  | _ => .error .valueError

/-- openid/store/sqlstore.py:239-247, one row -/
def keepRow (V : Env) (f : Fault) (seconds : Int) (url : Str) (row : List Sql.Val) : Run (List Assoc) := do
  let a ← Run.ofExcept (rowAssoc row)
  if a.getExpiresIn seconds == 0 then do
    let _ ← removeAssociation V f url a.handle
    return []
  else return [a]

/-- openid/store/sqlstore.py:239-247, the loop -/
def keepRows (V : Env) (f : Fault) (seconds : Int) (url : Str) : List (List Sql.Val) → Run (List Assoc)
  | [] => return []
  | r :: rs => do
    let x ← keepRow V f seconds url r
    let y ← keepRows V f seconds url rs
    return x ++ y

/-- openid/store/sqlstore.py:228-231 -/
def queryAssoc (V : Env) (f : Fault) (url : Str) : Option Str → Run Unit
  | some h => db V f t!"get_assoc" [.text url, .text h]
  | none => db V f t!"get_assocs" [.text url]

/-- openid/store/sqlstore.py:220-253 `txn_getAssociation` -/
def getAssociation (V : Env) (f : Fault) (seconds : Int) (url : Str) (handle : Option Str) : Run (Option Assoc) := do
  queryAssoc V f url handle
  let rows ← fetchall
  let l ← keepRows V f seconds url rows
  Run.ofExcept (latest l)

/-- openid/store/sqlstore.py:271-290 `txn_useNonce` -/
def useNonce (V : Env) (c : Clock) (f : Fault) (now : Nat) (url : Str) (timestamp : Int) (salt : Str) : Run Bool :=
  if outside c now timestamp then return false
  else Run.except (do db V f t!"add_nonce" [.text url, .int timestamp, .text salt]; return true)
        (fun e => e = .integrityError) false

/-- openid/store/sqlstore.py:294-296 -/
def cleanupNonces (V : Env) (c : Clock) (f : Fault) (now : Nat) : Run Nat := do
  db V f t!"clean_nonce" [.int (c.seconds now - Nonce.SKEW)]
  getRowcount

/-- openid/store/sqlstore.py:300-302 -/
def cleanupAssociations (V : Env) (c : Clock) (f : Fault) (now : Nat) : Run Nat := do
  db V f t!"clean_assoc" [.int (c.seconds now)]
  getRowcount

/-- the body of one operation -/
def body (V : Env) (c : Clock) (f : Fault) (now : Nat) : Op → Run Answer
  | .storeAssociation url a => do
    storeAssociation V f url a
    return .nothing
  | .getAssociation url h => do return .assoc (← getAssociation V f (c.seconds now) url h)
  | .removeAssociation url h => do return .bool (← removeAssociation V f url h)
  | .useNonce url t salt => do return .bool (← useNonce V c f now url t salt)
  | .cleanupNonces => do return .count (← cleanupNonces V c f now)
  | .cleanupAssociations => do return .count (← cleanupAssociations V c f now)

/-- a store object and its database between calls: the committed tables, the statements made so far, and everything
    handed to the database up to now -/
structure State where
  tables : Sql.Tables
  cache : Dict Str Str
  sent : List (Str × List Sql.Val)

/-- openid/store/sqlstore.py:171-191 `_callInTransaction`: `rollback`, the body with a fresh cursor, then `commit` or
    `rollback`.  `commitFault` is what `commit` raises, if it fails (without effect). -/
def callInTransaction (x : Run α) (commitFault : Option PyErr) (s : State) : Except PyErr α × State :=
  match x ⟨s.tables, 0, 0, [], s.cache, s.sent⟩ with
  | (.error e, cur) => (.error e, ⟨s.tables, cur.cache, cur.sent⟩)
  | (.ok a, cur) => match commitFault with
    | some e => (.error e, ⟨s.tables, cur.cache, cur.sent⟩)
    | none => (.ok a, ⟨cur.tables, cur.cache, cur.sent⟩)

/-- openid/store/sqlstore.py:371-381: `SQLiteStore.useNonce` -/
def sqliteCatch (B : Backend) : Op → Outcome → Outcome
  | .useNonce .., .error (.operationalError true) =>
    if B = .sqlite then .ok (.bool false) else .error (.operationalError true)
  | _, r => r

/-- one call of a store method -/
def step (V : Env) (c : Clock) (s : State) (e : Call) : State × Outcome :=
  let r := callInTransaction (body V c e.fault e.now e.op) e.commitFault s
  (r.2, sqliteCatch V.driver.backend e.op r.1)

/-- the trace of a sequence of calls, and what they leave -/
def run (V : Env) (c : Clock) : State → List Call → Trace × State
  | s, [] => ([], s)
  | s, e :: r =>
    let (s', o) := step V c s e
    let (tr, s'') := run V c s' r
    (((e.now, e.op), o) :: tr, s'')

end SqlText
