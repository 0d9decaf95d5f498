import Verif.Model.SqlText
/-! # What the tables of an SQL store hold -/

namespace SqlText
open Py Sql SqlStore Association Store

/-- the row of an association kept for a server URL -/
def assocRow (r : Str × Assoc) : List Cell :=
  [.bytes (Utf8.encode r.1), .bytes (Utf8.encode r.2.handle), .bytes r.2.secret, .int r.2.issued, .int r.2.lifetime,
   .bytes (Utf8.encode r.2.assocType)]

/-- the row of a nonce -/
def nonceRow (k : Str × Int × Str) : List Cell := [.bytes (Utf8.encode k.1), .int k.2.1, .bytes (Utf8.encode k.2.2)]

/-- the database is of the kind the driver is for, and the two tables have names that it takes and can tell apart -/
structure Named (V : Env) (a n : Str) : Prop where
  engine : V.engine = engineOf V.driver V.engine.reserved V.engine.bytesAsText V.engine.givesText
  assocs : V.names.get? t!"associations" = some a
  nonces : V.names.get? t!"nonces" = some n
  goodA : V.engine.goodName a = true
  goodN : V.engine.goodName n = true
  apart : lower a ≠ lower n

/-- the same, and a PostgreSQL driver sends byte strings as texts -/
structure Good (V : Env) (a n : Str) : Prop extends Named V a n where
  text : V.driver.backend = .postgres → V.engine.bytesAsText = true

/-- PostgreSQL takes secrets of at most 128 bytes -/
def ShortSecret (B : Backend) (x : Assoc) : Prop := B = .postgres → x.secret.length ≤ 128

/-- secrets that go into the database are of a length it takes -/
def ShortOp (B : Backend) : Op → Prop
  | .storeAssociation _ x => ShortSecret B x
  | _ => True

/-- the rows of a table -/
def rowsOf (ts : Tables) (name : Str) : Option (List (List Cell)) := (Dict.get? ts (lower name)).map (·.rows)

/-- the tables `a` and `n` hold these associations and nonces, and all others are as in `old` -/
structure Shows (a n : Str) (ts : Tables) (db : Db) (old : Tables) : Prop where
  assocs : rowsOf ts a = some (db.assocs.map assocRow)
  nonces : rowsOf ts n = some (db.nonces.map nonceRow)
  others : ∀ t, t ≠ lower a → t ≠ lower n → Dict.get? ts t = Dict.get? old t

/-- handed to the database: the text of a statement of the store with the names of the tables, and arguments none of which
    is a text -/
def FromTemplate (V : Env) (p : Str × List Val) : Prop :=
  (∃ t ∈ statements V.driver.backend, format V.names t.2 = .ok p.1) ∧ ∀ v ∈ p.2, ∀ s, v ≠ .text s

/-- operations that hand a text to the database -/
def SendsText (c : Clock) (now : Nat) : Op → Prop
  | .storeAssociation .. | .getAssociation .. | .removeAssociation .. => True
  | .useNonce _ t _ => outside c now t = false
  | .cleanupNonces | .cleanupAssociations => False

end SqlText
