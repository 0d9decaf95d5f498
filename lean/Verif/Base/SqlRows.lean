import Verif.Base.Py
/-! # Rows under concurrent transactions

What a database does with the rows of one table while several transactions are open, statement by statement:
`READ COMMITTED` with locks on rows, which is what PostgreSQL does by default and, for the statements used
here (at most one SELECT in a transaction, as its first statement), also `REPEATABLE READ` of MySQL.  SQLite
lets one writing transaction at a time go ahead, which is fewer executions.

A statement sees the rows committed by others and its own transaction's changes.  Uncommitted changes of
others it does not see; a statement that needs a row they have touched waits for their end.  A statement takes
effect at one moment, when it no longer has to wait.  Nothing is said about when it gets there; giving up,
as with a deadlock, is a failure of the statement. -/

namespace SqlRows

/-- A row, the open transaction that wrote it (none: it is committed), and the open transaction that deleted
    it, if any. -/
structure Entry (α : Type) where
  row : α
  ins : Option Nat
  del : Option Nat
  deriving DecidableEq

variable {α : Type}

/-- transaction `i` sees the row -/
def Entry.seen (i : Nat) (e : Entry α) : Bool := (e.ins == none || e.ins == some i) && e.del != some i

/-- another open transaction than `i` wrote or deleted the row -/
def Entry.held (i : Nat) (e : Entry α) : Bool := (e.ins != none && e.ins != some i) || (e.del != none && e.del != some i)

/-- SELECT -/
def select (i : Nat) (p : α → Bool) (l : List (Entry α)) : List α := (l.filter fun e => e.seen i && p e.row).map (·.row)

/-- mark the rows `p` that `i` sees as deleted by `i`; its own are just dropped -/
def drop (i : Nat) (p : α → Bool) (l : List (Entry α)) : List (Entry α) :=
  l.filterMap fun e =>
    if e.seen i && p e.row then (if e.ins == some i then none else some { e with del := some i }) else some e

/-- DELETE; nothing while it has to wait -/
def delete (i : Nat) (p : α → Bool) (l : List (Entry α)) : Option (List (Entry α) × Nat) :=
  if l.any fun e => e.seen i && p e.row && e.held i then none
  else some (drop i p l, (select i p l).length)

/-- UPDATE; `f` leaves the key alone -/
def update (i : Nat) (p : α → Bool) (f : α → α) (l : List (Entry α)) : Option (List (Entry α) × Nat) :=
  if l.any fun e => e.seen i && p e.row && e.held i then none
  else some (l.flatMap fun e =>
    if e.seen i && p e.row then
      (if e.ins == some i then [{ e with row := f e.row }] else [{ e with del := some i }, ⟨f e.row, some i, none⟩])
    else [e], (select i p l).length)

/-- INSERT of a row whose key is that of the rows `p`: nothing while it has to wait, `false` if such a row
    is there -/
def insert (i : Nat) (p : α → Bool) (row : α) (l : List (Entry α)) : Option (List (Entry α) × Bool) :=
  if l.any fun e => p e.row && e.held i then none
  else if l.any fun e => p e.row && e.seen i then some (l, false)
  else some (l ++ [⟨row, some i, none⟩], true)

/-- REPLACE, `INSERT OR REPLACE` -/
def replace (i : Nat) (p : α → Bool) (row : α) (l : List (Entry α)) : Option (List (Entry α)) :=
  if l.any fun e => p e.row && e.held i then none
  else some (drop i p l ++ [⟨row, some i, none⟩])

/-- COMMIT -/
def commit (i : Nat) (l : List (Entry α)) : List (Entry α) :=
  l.filterMap fun e =>
    if e.del == some i then none else if e.ins == some i then some { e with ins := none } else some e

/-- ROLLBACK -/
def rollback (i : Nat) (l : List (Entry α)) : List (Entry α) :=
  l.filterMap fun e =>
    if e.ins == some i then none else if e.del == some i then some { e with del := none } else some e

/-- the rows committed -/
def committed (l : List (Entry α)) : List α := (l.filter fun e => e.ins == none).map (·.row)

end SqlRows
