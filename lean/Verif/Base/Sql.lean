import Verif.Base.Utf8
/-! # What a database does with the text of a statement

Nothing in this file models a file of /repo.  It reads and runs the statements that openid/store/sqlstore.py
sends: a tokenizer, a parser for the few forms that occur there, and their meaning on tables with uniqueness
constraints.  A statement outside these forms is refused.

Simplifications: keywords and column names are those of the statements, in the same case; lengths of columns and
collations play no part; integers have no bounds; NULL does not occur. -/

namespace Sql
open Py

/-! ## Tokens -/

inductive Tok where
  | word (s : Str)
  | sym (c : Char)
  /-- a place for an argument -/
  | param
  deriving DecidableEq, Repr

/-- the `paramstyle` of a driver: `?` or `%s` -/
inductive Style where
  | qmark | format
  deriving DecidableEq

def isWordChar (c : Char) : Bool := c.isAlphanum || c == '_'

def isBlank (c : Char) : Bool := c == ' ' || c == '\n' || c == '\t' || c == '\r'

def flush : Str → List Tok
  | [] => []
  | c :: w => [.word (c :: w)]

/-- the tokens of a text, after the characters `cur` of an unfinished word -/
def lexGo (cur : Str) : Str → List Tok
  | [] => flush cur
  | c :: r =>
    if isWordChar c then lexGo (cur ++ [c]) r
    else if isBlank c then flush cur ++ lexGo [] r
    else flush cur ++ .sym c :: lexGo [] r

def lex (s : Str) : List Tok := lexGo [] s

/-- the places for arguments, in the style of the driver -/
def placeholders (st : Style) : List Tok → List Tok
  | [] => []
  | t :: r =>
    if st = .qmark ∧ t = .sym '?' then .param :: placeholders st r
    else if st = .format ∧ t = .sym '%' then
      match r with
      | .word w :: r => (if w = t!"s" then [.param] else [.sym '%', .word w]) ++ placeholders st r
      | r => .sym '%' :: placeholders st r
    else t :: placeholders st r

/-! ## Statements -/

inductive ColType where
  | text | binary | integer
  deriving DecidableEq, Repr

/-- a column of a key, perhaps only its first bytes -/
structure KeyPart where
  col : Str
  len : Option Nat
  deriving DecidableEq, Repr

structure TableDef where
  cols : List (Str × ColType)
  keys : List (List KeyPart)
  /-- `CHECK (LENGTH(col) <= n)` -/
  checks : List (Str × Nat)
  deriving DecidableEq, Repr

/-- what a condition compares with an argument -/
inductive Expr where
  | col (c : Str)
  | add (c d : Str)
  deriving DecidableEq, Repr

inductive Cmp where
  | eq (e : Expr)
  | lt (e : Expr)
  deriving DecidableEq, Repr

inductive Stmt where
  | create (table : Str) (d : TableDef)
  | insert (replace : Bool) (table : Str) (cols : Option (List Str)) (params : Nat)
  | select (cols : List Str) (table : Str) (conds : List Cmp)
  | delete (table : Str) (conds : List Cmp)
  | update (table : Str) (sets : List Str) (conds : List Cmp)
  deriving DecidableEq, Repr

/-- the tokens up to the parenthesis that closes depth `d`, and those after it -/
def group : Nat → List Tok → Option (List Tok × List Tok)
  | _, [] => none
  | d, t :: r =>
    if t = .sym ')' then
      match d with
      | 0 => some ([], r)
      | d + 1 => (group d r).map fun p => (t :: p.1, p.2)
    else (group (if t = .sym '(' then d + 1 else d) r).map fun p => (t :: p.1, p.2)

/-- `( ... )` at the start -/
def parens : List Tok → Option (List Tok × List Tok)
  | t :: r => if t = .sym '(' then group 0 r else none
  | [] => none

/-- split at the commas outside parentheses -/
def commas : Nat → List Tok → List (List Tok)
  | _, [] => [[]]
  | d, t :: r =>
    if d = 0 ∧ t = .sym ',' then [] :: commas d r
    else
      match commas (if t = .sym '(' then d + 1 else if t = .sym ')' then d - 1 else d) r with
      | [] => [[t]]
      | x :: xs => (t :: x) :: xs

/-- split at a word -/
def splitWord (w : Str) : List Tok → List (List Tok)
  | [] => [[]]
  | t :: r =>
    if t = .word w then [] :: splitWord w r
    else
      match splitWord w r with
      | [] => [[t]]
      | x :: xs => (t :: x) :: xs

/-- the tokens before the first occurrence of a word, and those after it -/
def cutWord (w : Str) : List Tok → Option (List Tok × List Tok)
  | [] => none
  | t :: r => if t = .word w then some ([], r) else (cutWord w r).map fun p => (t :: p.1, p.2)

/-- the word `w` at the start -/
def expect (w : Str) : List Tok → Option (List Tok)
  | t :: r => if t = .word w then some r else none
  | [] => none

def oneWord : List Tok → Option Str
  | [.word w] => some w
  | _ => none

def number (w : Str) : Option Nat :=
  if w ≠ [] ∧ w.all Char.isDigit then some (w.foldl (fun n c => 10 * n + (c.toNat - 48)) 0) else none

/-- `col` or `col(n)` -/
def keyPart : List Tok → Option KeyPart
  | [.word c] => some ⟨c, none⟩
  | [.word c, .sym o, .word n, .sym p] => if o = '(' ∧ p = ')' then (number n).map fun n => ⟨c, some n⟩ else none
  | _ => none

def keyParts (l : List Tok) : Option (List KeyPart) := (commas 0 l).mapM keyPart

def colType (w : Str) : Option ColType :=
  if w = t!"VARCHAR" ∨ w = t!"CHAR" then some .text
  else if w = t!"BLOB" ∨ w = t!"BYTEA" then some .binary
  else if w = t!"INTEGER" then some .integer
  else none

/-- what may follow the type of a column: a length, `NOT NULL` -/
def colRest (l : List Tok) : Option Unit :=
  let l := match parens l with | some p => p.2 | none => l
  if l = [] ∨ l = [.word t!"NOT", .word t!"NULL"] then some () else none

/-- `CONSTRAINT name CHECK (LENGTH(col) <= n)`, after `CONSTRAINT` -/
def check : List Tok → Option (Str × Nat)
  | [.word _, .word k, .sym a, .word f, .sym b, .word c, .sym d, .sym e, .sym g, .word n, .sym h] =>
    if k = t!"CHECK" ∧ f = t!"LENGTH" ∧ [a, b, d, e, g, h] = t!"(()<=)" then (number n).map fun n => (c, n) else none
  | _ => none

/-- one entry of `CREATE TABLE ( ... )` -/
def item (d : TableDef) : List Tok → Option TableDef
  | .word w :: r =>
    if w = t!"UNIQUE" then do
      let (k, rest) ← parens r
      if rest = [] then do return { d with keys := d.keys ++ [← keyParts k] } else none
    else if w = t!"PRIMARY" then do
      let (k, rest) ← parens (← expect t!"KEY" r)
      if rest = [] then do return { d with keys := d.keys ++ [← keyParts k] } else none
    else if w = t!"CONSTRAINT" then do
      return { d with checks := d.checks ++ [← check r] }
    else match r with
      | .word t :: rest => do
        let t ← colType t
        colRest rest
        return { d with cols := d.cols ++ [(w, t)] }
      | _ => none
  | _ => none

def items (d : TableDef) : List (List Tok) → Option TableDef
  | [] => some d
  | l :: r => do items (← item d l) r

/-- the end of a statement -/
def atEnd (l : List Tok) : Option Unit :=
  if l = [.sym ';'] ∨ l = [.word t!"ENGINE", .sym '=', .word t!"InnoDB", .sym ';'] then some () else none

def parseCreate : List Tok → Option Stmt
  | .word n :: r => do
    let (body, rest) ← parens r
    atEnd rest
    return .create n (← items ⟨[], [], []⟩ (commas 0 body))
  | _ => none

/-- the arguments of `VALUES`: as many places as there are -/
def places (l : List (List Tok)) : Option Nat := if l.all (· = [.param]) then some l.length else none

def parseValues (replace : Bool) (table : Str) (cols : Option (List Str)) (r : List Tok) : Option Stmt := do
  let (vals, rest) ← parens (← expect t!"VALUES" r)
  if rest = [.sym ';'] then return .insert replace table cols (← places (commas 0 vals)) else none

/-- after `INTO` -/
def parseInto (replace : Bool) : List Tok → Option Stmt
  | .word n :: r =>
    match parens r with
    | some (cols, r) => do parseValues replace n (some (← (commas 0 cols).mapM oneWord)) r
    | none => parseValues replace n none r
  | _ => none

def cmp : List Tok → Option Cmp
  | [.word c, .sym o, .param] =>
    if o = '=' then some (.eq (.col c)) else if o = '<' then some (.lt (.col c)) else none
  | [.word c, .sym p, .word d, .sym o, .param] =>
    if p ≠ '+' then none
    else if o = '=' then some (.eq (.add c d)) else if o = '<' then some (.lt (.add c d)) else none
  | _ => none

/-- `WHERE` a conjunction `;` -/
def conditions (l : List Tok) : Option (List Cmp) :=
  if l.getLast? = some (.sym ';') then (splitWord t!"AND" l.dropLast).mapM cmp else none

def parseWhere (k : Str → List Cmp → Stmt) : List Tok → Option Stmt
  | .word n :: r => do return k n (← conditions (← expect t!"WHERE" r))
  | _ => none

def assign : List Tok → Option Str
  | [.word c, .sym o, .param] => if o = '=' then some c else none
  | _ => none

def parseUpdate : List Tok → Option Stmt
  | .word n :: r => do
    let (sets, rest) ← cutWord t!"WHERE" (← expect t!"SET" r)
    return .update n (← (commas 0 sets).mapM assign) (← conditions rest)
  | _ => none

def parseToks : List Tok → Option Stmt
  | .word k :: r =>
    if k = t!"CREATE" then do parseCreate (← expect t!"TABLE" r)
    else if k = t!"INSERT" then
      match expect t!"OR" r with
      | some r => do parseInto true (← expect t!"INTO" (← expect t!"REPLACE" r))
      | none => do parseInto false (← expect t!"INTO" r)
    else if k = t!"REPLACE" then do parseInto true (← expect t!"INTO" r)
    else if k = t!"SELECT" then do
      let (cols, r) ← cutWord t!"FROM" r
      let cols ← (commas 0 cols).mapM oneWord
      parseWhere (fun n cs => .select cols n cs) r
    else if k = t!"DELETE" then do parseWhere .delete (← expect t!"FROM" r)
    else if k = t!"UPDATE" then parseUpdate r
    else none
  | _ => none

def parse (st : Style) (s : Str) : Option Stmt := parseToks (placeholders st (lex s))

/-! ## Their meaning -/

/-- a value in a table; texts are kept as UTF-8 -/
inductive Cell where
  | bytes (b : Bytes)
  | int (n : Int)
  deriving DecidableEq, Repr

/-- A Python value passed to or received from a driver; `blob` is what the driver's `Binary` makes. -/
inductive Val where
  | text (s : Str)
  | bytes (b : Bytes)
  | blob (b : Bytes)
  | int (n : Int)
  deriving DecidableEq, Repr

def Val.cell : Val → Cell
  | .text s => .bytes (Utf8.encode s)
  | .bytes b => .bytes b
  | .blob b => .bytes b
  | .int n => .int n

structure Table where
  defn : TableDef
  rows : List (List Cell)
  deriving DecidableEq

/-- the tables by name, in lower case -/
abbrev Tables := Dict Str Table

/-- A database and its driver. -/
structure Engine where
  style : Style
  /-- the names no table can have -/
  reserved : Str → Bool
  /-- what a violated uniqueness constraint raises -/
  notUnique : PyErr
  /-- arguments must be of the type of the column (PostgreSQL) -/
  strict : Bool
  /-- Byte strings are sent as text literals; otherwise, for a strict database, as binary ones
      (psycopg2 under Python 3). -/
  bytesAsText : Bool
  /-- texts come back as `str`, otherwise as bytes -/
  givesText : Bool

def lower (s : Str) : Str := s.map asciiLowerChar

/-- a name a table can have: letters, digits and underscores, not starting with a digit, not reserved -/
def Engine.goodName (E : Engine) (s : Str) : Bool :=
  s.all isWordChar && (s.head?.any fun c => !c.isDigit) && !E.reserved (lower s)

/-- any error other than a violated constraint: no such table, wrong types, not a statement -/
def refused : PyErr := .operationalError false

/-- may this argument be stored in, or compared with, a column of this type? -/
def Engine.accepts (E : Engine) (t : ColType) (v : Val) : Bool :=
  if E.strict then
    match t, v with
    | .text, .text _ => true
    | .text, .bytes _ => E.bytesAsText
    | .binary, .blob _ => true
    | .binary, .bytes _ => !E.bytesAsText
    | .integer, .int _ => true
    | _, _ => false
  else true

/-- the value in a column of a row -/
def TableDef.cell (d : TableDef) (row : List Cell) (c : Str) : Option Cell :=
  Dict.get? ((d.cols.map (·.1)).zip row) c

/-- what a key sees of a value -/
def KeyPart.part (d : TableDef) (k : KeyPart) (row : List Cell) : Option Cell :=
  match d.cell row k.col, k.len with
  | some (.bytes b), some n => some (.bytes (b.take n))
  | x, _ => x

/-- a key does not tell the rows apart -/
def TableDef.clash (d : TableDef) (row row' : List Cell) : Bool :=
  d.keys.any fun ks => ks.all fun k => k.part d row == k.part d row'

def TableDef.checksOk (d : TableDef) (row : List Cell) : Bool :=
  d.checks.all fun p => match d.cell row p.1 with
    | some (.bytes b) => decide (b.length ≤ p.2)
    | _ => true

/-- the integer value of an expression -/
def exprInt (d : TableDef) (row : List Cell) : Expr → Option Int
  | .col c => match d.cell row c with | some (.int n) => some n | _ => none
  | .add c e => match d.cell row c, d.cell row e with
    | some (.int m), some (.int n) => some (m + n)
    | _, _ => none

/-- does a row meet a condition with this argument? -/
def cmpHolds (d : TableDef) (row : List Cell) (v : Val) : Cmp → Bool
  | .eq (.col c) => d.cell row c == some v.cell
  | .eq e => match exprInt d row e, v with | some m, .int n => decide (m = n) | _, _ => false
  | .lt e => match exprInt d row e, v with | some m, .int n => decide (m < n) | _, _ => false

def condsHold (d : TableDef) (row : List Cell) (conds : List Cmp) (args : List Val) : Bool :=
  (conds.zip args).all fun p => cmpHolds d row p.2 p.1

def TableDef.typeOf (d : TableDef) (c : Str) : Option ColType := Dict.get? d.cols c

/-- an argument compared with an expression has its type -/
def Engine.cmpTyped (E : Engine) (d : TableDef) (v : Val) : Cmp → Bool
  | .eq (.col c) | .lt (.col c) => (d.typeOf c).any (E.accepts · v)
  | .eq (.add c e) | .lt (.add c e) =>
    d.typeOf c == some .integer && d.typeOf e == some .integer && E.accepts .integer v

def Engine.condsTyped (E : Engine) (d : TableDef) (conds : List Cmp) (args : List Val) : Bool :=
  (conds.zip args).all fun p => E.cmpTyped d p.2 p.1

/-- arguments for these columns have their types -/
def Engine.colsTyped (E : Engine) (d : TableDef) (cols : List Str) (args : List Val) : Bool :=
  (cols.zip args).all fun p => (d.typeOf p.1).any (E.accepts · p.2)

/-- what a driver gives back for a value of a column -/
def Engine.give (E : Engine) (t : ColType) : Cell → Except PyErr Val
  | .int n => .ok (.int n)
  | .bytes b =>
    if t = .text ∧ E.givesText then do return .text (← Utf8.decode b) else .ok (.bytes b)

/-- one value of a row of the answer -/
def Engine.giveCol (E : Engine) (d : TableDef) (row : List Cell) (c : Str) : Except PyErr Val :=
  match d.cell row c, d.typeOf c with
  | some x, some t => E.give t x
  | _, _ => .error refused

/-- what a statement leaves: the tables, the number of rows it touched, the rows of its answer -/
structure Done where
  tables : Tables
  rowcount : Nat
  rows : List (List Val)

/-- a row from the arguments of an `INSERT` -/
def newRow (d : TableDef) (cols : List Str) (args : List Val) : Option (List Cell) :=
  d.cols.mapM fun c => Dict.get? (cols.zip (args.map Val.cell)) c.1

/-- the values of some columns replaced -/
def setCols (d : TableDef) (sets : List Str) (args : List Val) (row : List Cell) : List Cell :=
  (d.cols.zip row).map fun p => (Dict.get? (sets.zip (args.map Val.cell)) p.1.1).getD p.2

def Table.insert (E : Engine) (t : Table) (replace : Bool) (row : List Cell) : Except PyErr Table :=
  if !t.defn.checksOk row then .error .integrityError
  else if replace then .ok { t with rows := t.rows.filter (fun r => !t.defn.clash row r) ++ [row] }
  else if t.rows.any (t.defn.clash row) then .error E.notUnique
  else .ok { t with rows := t.rows ++ [row] }

/-- the columns named by an `INSERT` -/
def insertCols (d : TableDef) : Option (List Str) → List Str
  | some l => l
  | none => d.cols.map (·.1)

/-- running a statement on its table -/
def Table.run (E : Engine) (t : Table) (args : List Val) : Stmt → Except PyErr (Table × Nat × List (List Val))
  | .create .. => .error refused
  | .insert replace _ cols n =>
    let cols := insertCols t.defn cols
    if cols.length ≠ n ∨ args.length ≠ n ∨ !E.colsTyped t.defn cols args then .error refused
    else match newRow t.defn cols args with
      | none => .error refused
      | some row => do return (← t.insert E replace row, 1, [])
  | .select cols _ conds =>
    if args.length ≠ conds.length ∨ !E.condsTyped t.defn conds args then .error refused
    else do
      let rows ← (t.rows.filter fun r => condsHold t.defn r conds args).mapM fun r => cols.mapM (E.giveCol t.defn r)
      return (t, rows.length, rows)
  | .delete _ conds =>
    if args.length ≠ conds.length ∨ !E.condsTyped t.defn conds args then .error refused
    else .ok ({ t with rows := t.rows.filter fun r => !condsHold t.defn r conds args },
      (t.rows.filter fun r => condsHold t.defn r conds args).length, [])
  | .update _ sets conds =>
    let new := args.take sets.length
    let old := args.drop sets.length
    if args.length ≠ sets.length + conds.length ∨ !E.colsTyped t.defn sets new ∨ !E.condsTyped t.defn conds old
        ∨ t.defn.keys.any (fun ks => ks.any fun k => sets.contains k.col) then .error refused
    else
      let hit := t.rows.filter fun r => condsHold t.defn r conds old
      if !hit.all (fun r => t.defn.checksOk (setCols t.defn sets new r)) then .error .integrityError
      else .ok ({ t with rows := t.rows.map fun r => if condsHold t.defn r conds old then setCols t.defn sets new r else r },
        hit.length, [])

def Stmt.table : Stmt → Str
  | .create n _ | .insert _ n _ _ | .select _ n _ | .delete n _ | .update n _ _ => n

/-- running a statement -/
def runStmt (E : Engine) (ts : Tables) (args : List Val) (s : Stmt) : Except PyErr Done :=
  if !E.goodName s.table then .error refused
  else match s, Dict.get? ts (lower s.table) with
    | .create _ d, none => if args = [] then .ok ⟨ts.set (lower s.table) ⟨d, []⟩, 0, []⟩ else .error refused
    | .create .., some _ => .error refused
    | _, none => .error refused
    | s, some t => do
      let (t', n, rows) ← t.run E args s
      return ⟨ts.set (lower s.table) t', n, rows⟩

/-- `cursor.execute(sql, args)` -/
def exec (E : Engine) (ts : Tables) (sql : Str) (args : List Val) : Except PyErr Done :=
  match parse E.style sql with
  | none => .error refused
  | some s => runStmt E ts args s

end Sql
