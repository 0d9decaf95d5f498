import Verif.Base.Py
/-! # Opening the file store: openid/store/filestore.py:62-127

The directories of a store are made when it is opened, by any number of processes at once.  A path is the list of its
components, the last one first; the root is the empty list.  The operating system has directories, which are never removed here,
and files at fixed places; a call may fail where the environment says so.  `os.path.abspath` and `normpath` are left out: the
path given is absolute. -/

namespace FileSetup
open Py

abbrev Path := List Str

inductive Errno where
  | eexist | enoent | other
  deriving DecidableEq

/-- a program: `os.path.exists`, `os.path.isdir`, `os.mkdir`; the exception is an `OSError` with its number -/
inductive Prog where
  | done (r : Except Errno Unit)
  | exists (p : Path) (k : Bool → Prog)
  | isdir (p : Path) (k : Bool → Prog)
  | mkdir (p : Path) (k : Except Errno Unit → Prog)

/-- go on with the outcome, a value or an exception -/
def Prog.andThen : Prog → (Except Errno Unit → Prog) → Prog
  | .done r, f => f r
  | .exists p k, f => .exists p fun b => (k b).andThen f
  | .isdir p k, f => .isdir p fun b => (k b).andThen f
  | .mkdir p k, f => .mkdir p fun b => (k b).andThen f

/-- CPython `os.makedirs(name)`: the parents are made first, and that one of them is there already does not matter -/
def makedirs : Path → Prog
  | [] => .mkdir [] .done
  | x :: h => .exists h fun there =>
    if there then .mkdir (x :: h) .done
    else (makedirs h).andThen fun
      | .error .enoent => .done (.error .enoent)
      | .error .other => .done (.error .other)
      | _ => .mkdir (x :: h) .done

/-- openid/store/filestore.py:70-74 `_ensureDir` -/
def ensureDir (p : Path) : Prog :=
  (makedirs p).andThen fun
    | .ok () => .done (.ok ())
    | .error .eexist => .isdir p fun b => if b then .done (.ok ()) else .done (.error .eexist)
    | .error e => .done (.error e)

/-- the next statement, unless there was an exception -/
def Prog.seq (p q : Prog) : Prog :=
  p.andThen fun
    | .ok () => q
    | .error e => .done (.error e)

/-- openid/store/filestore.py:107-117 and 125-127: `_setup` for the store in directory `d` -/
def setup (d : Path) : Prog :=
  (ensureDir (t!"nonces" :: d)).seq ((ensureDir (t!"associations" :: d)).seq (ensureDir (t!"temp" :: d)))

/-- the operating system: places where there are files, and places where making a directory may fail -/
structure Env where
  file : Path → Bool
  faulty : Path → Bool

/-- the directories made so far (the root is always there) -/
abbrev Dirs := List Path

def isDir (s : Dirs) (p : Path) : Bool := p = [] || decide (p ∈ s)

def isThere (E : Env) (s : Dirs) (p : Path) : Bool := isDir s p || E.file p

/-- `mkdir` -/
def doMkdir (E : Env) (s : Dirs) (p : Path) : Except Errno Unit × Dirs :=
  if isThere E s p then (.error .eexist, s)
  else if isDir s p.tail then (.ok (), p :: s)
  else if E.file p.tail then (.error .other, s)
  else (.error .enoent, s)

/-- processes opening stores, and those that are done: the directory and what came out -/
structure Config where
  dirs : Dirs
  procs : Nat → Option (Path × Prog)
  finished : List (Path × Except Errno Unit)

/-- the outcome of one call of a program -/
def call (E : Env) (s : Dirs) : Prog → Prog × Dirs
  | .done r => (.done r, s)
  | .exists p k => (k (isThere E s p), s)
  | .isdir p k => (k (isDir s p), s)
  | .mkdir p k => (k (doMkdir E s p).1, (doMkdir E s p).2)

/-- what can happen -/
inductive Act where
  /-- process `i` opens the store in `d` -/
  | start (i : Nat) (d : Path)
  /-- process `i` makes its next call -/
  | run (i : Nat)
  /-- the call of process `i` fails -/
  | fault (i : Nat)
  /-- process `i` is done -/
  | finish (i : Nat)
  /-- process `i` dies -/
  | crash (i : Nat)
  /-- somebody else makes a directory -/
  | other (p : Path)

def Config.put (c : Config) (i : Nat) (p : Option (Path × Prog)) : Config :=
  { c with procs := fun j => if j = i then p else c.procs j }

/-- one step; nothing happens where the step is not possible -/
def step (E : Env) (c : Config) : Act → Config
  | .start i d => match c.procs i with
    | none => c.put i (some (d, setup d))
    | some _ => c
  | .run i => match c.procs i with
    | some (d, p) => { c.put i (some (d, (call E c.dirs p).1)) with dirs := (call E c.dirs p).2 }
    | none => c
  | .fault i => match c.procs i with
    | some (d, .mkdir p k) => if E.faulty p then c.put i (some (d, k (.error .other))) else c
    | _ => c
  | .finish i => match c.procs i with
    | some (d, .done r) => { c.put i none with finished := (d, r) :: c.finished }
    | _ => c
  | .crash i => c.put i none
  | .other p => if isThere E c.dirs p then c else { c with dirs := p :: c.dirs }

/-- everything that happens, from directories that are there already -/
def after (E : Env) (s : Dirs) (l : List Act) : Config := l.foldl (step E) ⟨s, fun _ => none, []⟩

end FileSetup
