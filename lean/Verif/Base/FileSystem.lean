import Verif.Base.Py
/-! # Files, system calls and processes

Not code of /repo: the operating system under openid/store/filestore.py.  Three directories of one file
system are modelled.  A system call is atomic; between two calls of a process any other process may run, and
any process may die.  An environment says which calls may fail at any time, with an error other than
"exists" and "does not exist".

Simplifications: `listdir` is a snapshot; `read` returns the whole file; file modes, links and names with
a slash are not modelled (a call with such a name is free to fail). -/

namespace Files
open Py

inductive Errno where
  | enoent | eexist | other
  deriving DecidableEq

inductive Dir where
  | nonces | assocs | temp
  deriving DecidableEq

/-- the system calls the file store makes -/
inductive Call where
  /-- `time.time()` -/
  | time
  /-- `os.open(name, O_CREAT | O_EXCL | O_WRONLY)` in the nonce directory -/
  | openExcl (name : Str)
  | close
  | listdir (d : Dir)
  | unlink (d : Dir) (name : Str)
  /-- `mkstemp(dir=temp)`: a new empty file, its name and the file itself -/
  | mkstemp
  | fdopen
  | write (file : Nat) (data : Bytes)
  | fsync (file : Nat)
  /-- rename a file of the temporary directory to one of the association directory -/
  | rename (tmp name : Str)
  /-- `open(name, 'rb')` in the association directory -/
  | openRead (name : Str)
  | read (file : Nat)
  deriving DecidableEq

/-- what a system call returns -/
@[reducible] def Call.Reply : Call → Type
  | .time => Nat
  | .listdir _ => Except Errno (List Str)
  | .mkstemp => Except Errno (Str × Nat)
  | .openRead _ => Except Errno Nat
  | .read _ => Except Errno Bytes
  | .openExcl _ | .close | .unlink .. | .fdopen | .write .. | .fsync _ | .rename .. => Except Errno Unit

/-- The file system: directories map names to files, files hold bytes.  `synced` is what of a file has
    certainly reached the disk. -/
structure FS where
  nonces : List Str
  assocs : Dict Str Nat
  temp : Dict Str Nat
  data : Nat → Bytes
  synced : Nat → Bytes
  next : Nat

def FS.empty : FS := ⟨[], [], [], fun _ => [], fun _ => [], 0⟩

/-- the names in a directory -/
def FS.names (fs : FS) : Dir → List Str
  | .nonces => fs.nonces
  | .assocs => Dict.keys fs.assocs
  | .temp => Dict.keys fs.temp

/-- remove a name from a directory -/
def FS.remove (fs : FS) : Dir → Str → FS
  | .nonces, n => { fs with nonces := fs.nonces.erase n }
  | .assocs, n => { fs with assocs := Dict.del fs.assocs n }
  | .temp, n => { fs with temp := Dict.del fs.temp n }

def FS.setData (fs : FS) (i : Nat) (b : Bytes) : FS :=
  { fs with data := fun j => if j = i then b else fs.data j }

def FS.setSynced (fs : FS) (i : Nat) : FS :=
  { fs with synced := fun j => if j = i then fs.data i else fs.synced j }

/-- an error that leaves everything as it is -/
def Call.fault : (c : Call) → Option c.Reply
  | .time => none
  | .listdir _ => some (.error .other)
  | .mkstemp => some (.error .other)
  | .openRead _ => some (.error .other)
  | .read _ => some (.error .other)
  | .openExcl _ => some (.error .other)
  | .close => some (.error .other)
  | .unlink .. => some (.error .other)
  | .fdopen => some (.error .other)
  | .write .. => some (.error .other)
  | .fsync _ => some (.error .other)
  | .rename .. => some (.error .other)

/-- The system a store runs on.  `win`: renaming does not replace an existing file (Windows).
    `faulty`: the calls that may fail. -/
structure Env where
  win : Bool
  faulty : Call → Prop

/-- One system call at clock `t`. -/
inductive Exec (E : Env) (t : Nat) : FS → (c : Call) → c.Reply → FS → Prop where
  | fault (fs : FS) (c : Call) (r : c.Reply) (hf : E.faulty c) (h : c.fault = some r) : Exec E t fs c r fs
  | time (fs : FS) : Exec E t fs .time t fs
  | openExcl (fs : FS) (n : Str) (h : n ∉ fs.nonces) :
      Exec E t fs (.openExcl n) (.ok ()) { fs with nonces := n :: fs.nonces }
  | openExclExists (fs : FS) (n : Str) (h : n ∈ fs.nonces) :
      Exec E t fs (.openExcl n) (.error .eexist) fs
  | close (fs : FS) : Exec E t fs .close (.ok ()) fs
  | listdir (fs : FS) (d : Dir) (l : List Str) (h : l.Perm (fs.names d)) :
      Exec E t fs (.listdir d) (.ok l) fs
  | unlink (fs : FS) (d : Dir) (n : Str) (h : n ∈ fs.names d) :
      Exec E t fs (.unlink d n) (.ok ()) (fs.remove d n)
  | unlinkNone (fs : FS) (d : Dir) (n : Str) (h : n ∉ fs.names d) :
      Exec E t fs (.unlink d n) (.error .enoent) fs
  | mkstemp (fs : FS) (n : Str) (h : n ∉ fs.names .temp) :
      Exec E t fs .mkstemp (.ok (n, fs.next))
        { fs with temp := Dict.set fs.temp n fs.next,
                  data := fun j => if j = fs.next then [] else fs.data j,
                  synced := fun j => if j = fs.next then [] else fs.synced j, next := fs.next + 1 }
  | fdopen (fs : FS) : Exec E t fs .fdopen (.ok ()) fs
  | write (fs : FS) (i : Nat) (b : Bytes) :
      Exec E t fs (.write i b) (.ok ()) (fs.setData i (fs.data i ++ b))
  | writePart (fs : FS) (i k : Nat) (b : Bytes) (hf : E.faulty (.write i b)) :
      Exec E t fs (.write i b) (.error .other) (fs.setData i (fs.data i ++ b.take k))
  | fsync (fs : FS) (i : Nat) : Exec E t fs (.fsync i) (.ok ()) (fs.setSynced i)
  | rename (fs : FS) (tmp n : Str) (i : Nat) (h : Dict.get? fs.temp tmp = some i)
      (hw : E.win = true → n ∉ fs.names .assocs) :
      Exec E t fs (.rename tmp n) (.ok ())
        { fs with assocs := Dict.set fs.assocs n i, temp := Dict.del fs.temp tmp }
  | renameExists (fs : FS) (tmp n : Str) (hw : E.win = true) (h : n ∈ fs.names .assocs) :
      Exec E t fs (.rename tmp n) (.error .eexist) fs
  | renameNone (fs : FS) (tmp n : Str) (h : Dict.get? fs.temp tmp = none) :
      Exec E t fs (.rename tmp n) (.error .enoent) fs
  | openRead (fs : FS) (n : Str) (i : Nat) (h : Dict.get? fs.assocs n = some i) :
      Exec E t fs (.openRead n) (.ok i) fs
  | openReadNone (fs : FS) (n : Str) (h : Dict.get? fs.assocs n = none) :
      Exec E t fs (.openRead n) (.error .enoent) fs
  | read (fs : FS) (i : Nat) : Exec E t fs (.read i) (.ok (fs.data i)) fs

/-- A program: finished with a value or an exception, or about to make a system call. -/
inductive Prog (α : Type) where
  | done (r : Except PyErr α)
  | sys (c : Call) (k : c.Reply → Prog α)

namespace Prog

def bind : Prog α → (α → Prog β) → Prog β
  | .done (.ok a), f => f a
  | .done (.error e), _ => .done (.error e)
  | .sys c k, f => .sys c fun r => (k r).bind f

instance : Monad Prog where
  pure a := .done (.ok a)
  bind := Prog.bind

def raise (e : PyErr) : Prog α := .done (.error e)

/-- `try: x except Exception as e: h(e)` -/
def tryExcept : Prog α → (PyErr → Prog α) → Prog α
  | .done (.ok a), _ => .done (.ok a)
  | .done (.error e), h => h e
  | .sys c k, h => .sys c fun r => (k r).tryExcept h

/-- a system call whose failure is an exception, `OSError` -/
def orRaise : Except Errno α → Prog α
  | .ok a => .done (.ok a)
  | .error _ => .done (.error .osError)

end Prog

/-- A process running alone from start to end, all within one instant. -/
inductive Run (E : Env) (t : Nat) : FS → Prog α → Except PyErr α → FS → Prop where
  | done (fs : FS) (r : Except PyErr α) : Run E t fs (.done r) r fs
  | sys {fs fs1 fs2 : FS} {c : Call} {k : c.Reply → Prog α} {r : c.Reply} {out : Except PyErr α}
      (h : Exec E t fs c r fs1) (h' : Run E t fs1 (k r) out fs2) : Run E t fs (.sys c k) out fs2

/-- A process running alone for a while: it may be stopped (or die) anywhere. -/
inductive Steps (E : Env) (t : Nat) : FS → Prog α → FS → Prog α → Prop where
  | refl (fs : FS) (p : Prog α) : Steps E t fs p fs p
  | sys {fs fs1 fs2 : FS} {c : Call} {k : c.Reply → Prog α} {r : c.Reply} {p : Prog α}
      (h : Exec E t fs c r fs1) (h' : Steps E t fs1 (k r) fs2 p) : Steps E t fs (.sys c k) fs2 p

/-! ## Many processes -/

variable {Op Ans : Type}

/-- a process: the operation it was called with, and what is left of its program -/
structure Proc (Op Ans : Type) where
  op : Op
  prog : Prog Ans

/-- All processes, the clock, and two records kept for the statements of the properties: the operations
    started, and those finished with what came out. -/
structure Config (Op Ans : Type) where
  fs : FS
  clock : Nat
  procs : Nat → Option (Proc Op Ans)
  started : List Op
  finished : List (Op × Except PyErr Ans)

def Config.init (Op Ans : Type) : Config Op Ans := ⟨FS.empty, 0, fun _ => none, [], []⟩

def Config.put (cfg : Config Op Ans) (i : Nat) (p : Option (Proc Op Ans)) : Config Op Ans :=
  { cfg with procs := fun j => if j = i then p else cfg.procs j }

/-- One step of the whole system.  `program` says what an operation does; `allowed` restricts which process
    may make its next call when (used to state assumptions on the schedule). -/
inductive Step (E : Env) (program : Op → Prog Ans) (allowed : Config Op Ans → Proc Op Ans → Prop) :
    Config Op Ans → Config Op Ans → Prop where
  /-- time passes -/
  | tick (cfg : Config Op Ans) (t : Nat) (h : cfg.clock ≤ t) :
      Step E program allowed cfg { cfg with clock := t }
  /-- an idle process calls an operation -/
  | start (cfg : Config Op Ans) (i : Nat) (op : Op) (h : cfg.procs i = none) :
      Step E program allowed cfg
        { cfg.put i (some ⟨op, program op⟩) with started := op :: cfg.started }
  /-- a process makes its next system call -/
  | sys (cfg : Config Op Ans) (i : Nat) (op : Op) (c : Call) (k : c.Reply → Prog Ans) (r : c.Reply)
      (fs : FS) (h : cfg.procs i = some ⟨op, .sys c k⟩) (ha : allowed cfg ⟨op, .sys c k⟩)
      (hx : Exec E cfg.clock cfg.fs c r fs) :
      Step E program allowed cfg { cfg.put i (some ⟨op, k r⟩) with fs := fs }
  /-- a process returns from its operation -/
  | finish (cfg : Config Op Ans) (i : Nat) (op : Op) (r : Except PyErr Ans)
      (h : cfg.procs i = some ⟨op, .done r⟩) :
      Step E program allowed cfg { cfg.put i none with finished := (op, r) :: cfg.finished }
  /-- a process dies -/
  | crash (cfg : Config Op Ans) (i : Nat) : Step E program allowed cfg (cfg.put i none)

/-- the configurations a system can get into -/
inductive Reachable (E : Env) (program : Op → Prog Ans) (allowed : Config Op Ans → Proc Op Ans → Prop) :
    Config Op Ans → Prop where
  | init : Reachable E program allowed (Config.init Op Ans)
  | step {a b : Config Op Ans} (h : Reachable E program allowed a)
      (h' : Step E program allowed a b) : Reachable E program allowed b

/-- The machine loses power and comes back: names keep the files they had, but a file may have lost any
    of its bytes that were not synced, down to a prefix. -/
def PowerLoss (fs fs' : FS) : Prop :=
  fs'.nonces = fs.nonces ∧ fs'.assocs = fs.assocs ∧ fs'.temp = fs.temp ∧ fs'.next = fs.next ∧
    ∀ i, fs.synced i <+: fs'.data i ∧ fs'.data i <+: fs.data i

end Files
