import Verif.Base.FileSystem
import Verif.Model.SqlStore
/-! # Model of openid/store/filestore.py

Operations are programs of system calls.  SHA-1 is an arbitrary function.  `_ensureDir`, `_setup` and the
constructor (lines 66-121) are in `Model/FileSetup`; here the three directories exist.  `cleanup` (lines 377-385) is
`cleanupAssociations` followed by `cleanupNonces`. -/

namespace FileStore
open Py Association Store Files Cryptutil

/-- `sha1(...).digest()` -/
abbrev Sha1 := Bytes → Bytes

/-- openid/store/filestore.py:25-30 `_safe64` -/
def safe64 (H : Sha1) (s : Str) : Str :=
  replaceChar '=' [] (replaceChar '/' ['.'] (replaceChar '+' ['_'] (toBase64 (H (Utf8.encode s)))))

/-- openid/store/filestore.py:21-22: ASCII letters, digits and the dot -/
def isFilenameSafe (c : Char) : Bool :=
  (65 ≤ c.toNat && c.toNat ≤ 90) || (97 ≤ c.toNat && c.toNat ≤ 122) || (48 ≤ c.toNat && c.toNat ≤ 57)
    || c == '.'

/-- one hexadecimal digit; `a` is the code of the letter for ten -/
def hexDigit (a n : Nat) : Char := if n < 10 then Char.ofNat (48 + n) else Char.ofNat (a + (n - 10))

/-- hexadecimal digits, most significant first -/
def hexDigitsAux (a : Nat) : Nat → Nat → Str
  | 0, _ => []
  | fuel + 1, n =>
    if n < 16 then [hexDigit a n] else hexDigitsAux a fuel (n / 16) ++ [hexDigit a (n % 16)]

def hexDigits (a n : Nat) : Str := hexDigitsAux a (n + 1) n

/-- `'%0<w>x' % n` (`a = 97`) and `'%0<w>X' % n` (`a = 65`), for `n ≥ 0` -/
def fmtHex (a w n : Nat) : Str := List.replicate (w - (hexDigits a n).length) '0' ++ hexDigits a n

/-- openid/store/filestore.py:35-39 -/
def escapeChar (c : Char) : Str := if isFilenameSafe c then [c] else '_' :: fmtHex 65 2 c.toNat

/-- openid/store/filestore.py:33-40 `_filenameEscape` -/
def filenameEscape (s : Str) : Str := s.flatMap escapeChar

/-- `s.split(sep, 1)` for a non-empty separator: `none` when it does not occur -/
def cutStr (sep : Str) : Str → Option (Str × Str)
  | [] => none
  | c :: s =>
    if sep.isPrefixOf (c :: s) then some ([], (c :: s).drop sep.length)
    else (cutStr sep s).map fun p => (c :: p.1, p.2)

/-- `rest.split('/', 1)[0]` -/
def beforeSlash (s : Str) : Str := s.takeWhile (· ≠ '/')

/-- openid/store/filestore.py:150-175 `getAssociationFilename`, the name in the directory -/
def assocName (H : Sha1) (url handle : Str) : Except PyErr Str :=
  match cutStr t!"://" url with
  | none => .error .valueError
  | some (proto, rest) => .ok (proto ++ '-' :: filenameEscape (beforeSlash rest) ++ '-' :: safe64 H url
      ++ '-' :: (if handle = [] then [] else safe64 H handle))

/-- openid/store/filestore.py:175 and POSIX `os.path.join`: the path of that name, for a directory that
    does not end in a slash -/
def joinPath (dir name : Str) : Str := if startsWith name t!"/" then name else dir ++ '/' :: name

/-- `os.path.basename` -/
def basename (s : Str) : Str :=
  match rcut '/' s with
  | some p => p.2
  | none => s

/-- openid/store/filestore.py:43-59 `_removeIfPresent` on the reply of `unlink` -/
def removed : Except Errno Unit → Prog Nat
  | .ok () => .done (.ok 1)
  | .error .enoent => .done (.ok 0)
  | .error _ => .done (.error .osError)

/-- openid/store/filestore.py:43-59 `_removeIfPresent` -/
def removeIfPresent (d : Dir) (name : Str) : Prog Nat := .sys (.unlink d name) removed

/-- openid/store/filestore.py:142-148: `os.fdopen` with its error path -/
def mktempOpen (p : Str × Nat) : Except Errno Unit → Prog (Str × Nat)
  | .ok () => .done (.ok p)
  | .error _ => do
    let _ ← removeIfPresent .temp p.1
    .raise .osError

/-- openid/store/filestore.py:140-148 -/
def mktempMade : Except Errno (Str × Nat) → Prog (Str × Nat)
  | .ok p => .sys .fdopen (mktempOpen p)
  | .error _ => .raise .osError

/-- openid/store/filestore.py:129-148 `_mktemp` -/
def mktemp : Prog (Str × Nat) := .sys .mkstemp mktempMade

/-- `tmp_file.close()`: hand the buffered bytes to the system, close, and raise if the former failed -/
def flushAndClose (file : Nat) (rest : Bytes) : Prog Unit :=
  .sys (.write file rest) fun w => .sys .close fun c => do
    .orRaise w
    .orRaise c

/-- openid/store/filestore.py:188-193.  The file object is buffered: `early` bytes reach the system during
    `write`, the others (all, for less than a buffer) only when the file is closed, after the `fsync`. -/
def writeTemp (early file : Nat) (data : Bytes) : Prog Unit :=
  .sys (.write file (data.take early)) fun
    | .ok () => .sys (.fsync file) fun
      | .ok () => flushAndClose file (data.drop early)
      | .error _ => do
        flushAndClose file (data.drop early)
        .raise .osError
    | .error _ => do
      flushAndClose file (data.drop early)
      .raise .osError

/-- openid/store/filestore.py:214 -/
def renameAgain (tmp name : Str) : Prog Unit := .sys (.rename tmp name) .orRaise

/-- openid/store/filestore.py:204-214, after `unlink` -/
def unlinked (tmp name : Str) : Except Errno Unit → Prog Unit
  | .ok () => renameAgain tmp name
  | .error .enoent => renameAgain tmp name
  | .error _ => .raise .osError

/-- openid/store/filestore.py:195-214 -/
def renameInto (tmp name : Str) : Prog Unit :=
  .sys (.rename tmp name) fun
    | .ok () => .done (.ok ())
    | .error .eexist => .sys (.unlink .assocs name) (unlinked tmp name)
    | .error _ => .raise .osError

/-- openid/store/filestore.py:188-219, with the temporary file made -/
def writeAndRename (early : Nat) (data : Bytes) (name : Str) (tmp : Str × Nat) : Prog Unit :=
  Prog.tryExcept (do writeTemp early tmp.2 data; renameInto tmp.1 name) fun e => do
    let _ ← removeIfPresent .temp tmp.1
    .raise e

/-- openid/store/filestore.py:177-219 `storeAssociation` -/
def storeAssociation (H : Sha1) (early : Nat) (url : Str) (a : Assoc) : Prog Unit :=
  match a.serialize with
  | .error e => .raise e
  | .ok s => match assocName H url a.handle with
    | .error e => .raise e
    | .ok name => do
      let tmp ← mktemp
      writeAndRename early (Utf8.encode s) name tmp

/-- openid/store/filestore.py:283 -/
def parseFile (X : ExtraDigits) (b : Bytes) : Except PyErr Assoc := do
  let s ← Utf8.decode b
  deserialize X s

/-- openid/store/filestore.py:289-293: the expiry check with its clock -/
def checkExpiry (c : Clock) (name : Str) (a : Assoc) : Prog (Option Assoc) :=
  .sys .time fun now =>
    if a.getExpiresIn (c.seconds now) == 0 then do
      let _ ← removeIfPresent .assocs name
      return none
    else return some a

/-- openid/store/filestore.py:282-293 -/
def checkRead (X : ExtraDigits) (c : Clock) (name : Str) (b : Bytes) : Prog (Option Assoc) :=
  match parseFile X b with
  | .error e =>
    if e.isValueError then do
      let _ ← removeIfPresent .assocs name
      return none
    else .raise e
  | .ok a => checkExpiry c name a

/-- openid/store/filestore.py:277-280 and 361-364: `read` and `close` -/
def readAll (file : Nat) : Prog Bytes :=
  .sys (.read file) fun b => .sys .close fun x => do
    .orRaise x
    .orRaise b

/-- openid/store/filestore.py:267-293 `_getAssociation` -/
def getOne (X : ExtraDigits) (c : Clock) (name : Str) : Prog (Option Assoc) :=
  .sys (.openRead name) fun
    | .error .enoent => return none
    | .error _ => .raise .osError
    | .ok file => do
      let b ← readAll file
      checkRead X c name b

/-- openid/store/filestore.py:251-256: the loop over the matching files -/
def getMany (X : ExtraDigits) (c : Clock) : List Str → Prog (List Assoc)
  | [] => return []
  | n :: r => do
    let a ← getOne X c n
    let l ← getMany X c r
    return a.toList ++ l

/-- openid/store/filestore.py:241-265 -/
def getLatest (X : ExtraDigits) (c : Clock) (name : Str) : Prog (Option Assoc) :=
  .sys (.listdir .assocs) fun
    | .error _ => .raise .osError
    | .ok l => do
      let as ← getMany X c (l.filter (startsWith · (basename name)))
      .done (SqlStore.latest as)

/-- openid/store/filestore.py:221-265 `getAssociation` -/
def getAssociation (H : Sha1) (X : ExtraDigits) (c : Clock) (url : Str) (handle : Option Str) :
    Prog (Option Assoc) :=
  match assocName H url (handle.getD []) with
  | .error e => .raise e
  | .ok name => if handle.getD [] = [] then getLatest X c name else getOne X c name

/-- openid/store/filestore.py:295-308 `removeAssociation` -/
def removeAssociation (H : Sha1) (X : ExtraDigits) (c : Clock) (url handle : Str) : Prog Bool := do
  let a ← getAssociation H X c url (some handle)
  if a.isNone then return false
  else match assocName H url handle with
    | .error e => .raise e
    | .ok name => do
      let n ← removeIfPresent .assocs name
      return n == 1

/-- openid/store/filestore.py:318 and 404: `abs(timestamp - now) > SKEW`, in ticks -/
def outside (c : Clock) (now : Nat) (timestamp : Int) : Bool :=
  (timestamp * c.tick - now).natAbs > (Nonce.SKEW * c.tick).natAbs

/-- openid/store/filestore.py:321-326 -/
def nonceParts (url : Str) : Except PyErr (Str × Str) :=
  if url = [] then .ok ([], []) else
    match cutStr t!"://" url with
    | none => .error .valueError
    | some p => .ok p

/-- `'%08x' % timestamp` -/
def stamp (timestamp : Int) : Str :=
  if timestamp < 0 then '-' :: fmtHex 97 7 timestamp.natAbs else fmtHex 97 8 timestamp.natAbs

/-- openid/store/filestore.py:321-335: the name of the nonce's file -/
def nonceName (H : Sha1) (url : Str) (timestamp : Int) (salt : Str) : Except PyErr Str :=
  match nonceParts url with
  | .error e => .error e
  | .ok (proto, rest) => .ok (stamp timestamp ++ '-' :: proto ++ '-' :: filenameEscape (beforeSlash rest)
      ++ '-' :: safe64 H url ++ '-' :: safe64 H salt)

/-- openid/store/filestore.py:344-345 -/
def nonceMade : Except Errno Unit → Prog Bool
  | .ok () => .done (.ok true)
  | .error _ => .raise .osError

/-- openid/store/filestore.py:336-345: the reply of `os.open` -/
def nonceOpened : Except Errno Unit → Prog Bool
  | .ok () => .sys .close nonceMade
  | .error .eexist => .done (.ok false)
  | .error _ => .raise .osError

/-- openid/store/filestore.py:318-345, after the clock was read -/
def useNonceAt (H : Sha1) (c : Clock) (url : Str) (timestamp : Int) (salt : Str) (now : Nat) : Prog Bool :=
  if outside c now timestamp then return false
  else match nonceName H url timestamp salt with
    | .error e => .raise e
    | .ok name => .sys (.openExcl name) nonceOpened

/-- openid/store/filestore.py:310-345 `useNonce` -/
def useNonce (H : Sha1) (c : Clock) (url : Str) (timestamp : Int) (salt : Str) : Prog Bool :=
  .sys .time (useNonceAt H c url timestamp salt)

/-- openid/store/filestore.py:352-373, one file -/
def readAssoc (X : ExtraDigits) (name : Str) : Prog (List (Str × Assoc)) :=
  .sys (.openRead name) fun
    | .error .enoent => return []
    | .error _ => .raise .osError
    | .ok file => do
      let b ← readAll file
      match parseFile X b with
      | .error e =>
        if e.isValueError then do
          let _ ← removeIfPresent .assocs name
          return []
        else .raise e
      | .ok a => return [(name, a)]

/-- openid/store/filestore.py:350-375, the loop of `_allAssocs` -/
def readAssocs (X : ExtraDigits) : List Str → Prog (List (Str × Assoc))
  | [] => return []
  | n :: r => do
    let x ← readAssoc X n
    let y ← readAssocs X r
    return x ++ y

/-- openid/store/filestore.py:389-393: the loop of `cleanupAssociations` -/
def removeExpired (c : Clock) : List (Str × Assoc) → Prog Nat
  | [] => return 0
  | (name, a) :: r => .sys .time fun now =>
    if a.getExpiresIn (c.seconds now) == 0 then do
      let _ ← removeIfPresent .assocs name
      let n ← removeExpired c r
      return n + 1
    else removeExpired c r

/-- openid/store/filestore.py:387-393 `cleanupAssociations` -/
def cleanupAssociations (X : ExtraDigits) (c : Clock) : Prog Nat :=
  .sys (.listdir .assocs) fun
    | .error _ => .raise .osError
    | .ok l => do
      let as ← readAssocs X l
      removeExpired c as

/-- the value of a hexadecimal digit -/
def hexVal (X : ExtraDigits) (ch : Char) : Option Nat :=
  if 48 ≤ ch.toNat ∧ ch.toNat ≤ 57 then some (ch.toNat - 48)
  else if 97 ≤ ch.toNat ∧ ch.toNat ≤ 102 then some (ch.toNat - 87)
  else if 65 ≤ ch.toNat ∧ ch.toNat ≤ 70 then some (ch.toNat - 55)
  else X ch

/-- hexadecimal digits with single underscores between them -/
def hexNat (X : ExtraDigits) (acc : Nat) (sep : Bool) : Str → Option Nat
  | [] => if sep then none else some acc
  | ch :: r =>
    match hexVal X ch with
    | some d => hexNat X (acc * 16 + d) false r
    | none => if ch = '_' && !sep then hexNat X acc true r else none

/-- an optional `0x`, which may be followed by an underscore -/
def dropHexPrefix : Str → Str
  | '0' :: 'x' :: '_' :: r => r
  | '0' :: 'X' :: '_' :: r => r
  | '0' :: 'x' :: r => r
  | '0' :: 'X' :: r => r
  | r => r

/-- CPython `int(text, 16)` -/
def parseHex (X : ExtraDigits) (s : Str) : Except PyErr Int :=
  let r := match strip s with
    | '-' :: r => (hexNat X 0 true (dropHexPrefix r)).map fun (n : Nat) => -(n : Int)
    | '+' :: r => (hexNat X 0 true (dropHexPrefix r)).map fun (n : Nat) => (n : Int)
    | r => (hexNat X 0 true (dropHexPrefix r)).map fun (n : Nat) => (n : Int)
  match r with
  | some i => .ok i
  | none => .error .valueError

/-- openid/store/filestore.py:402-403: the time in a nonce's file name -/
def stampOf (X : ExtraDigits) (name : Str) : Except PyErr Int := parseHex X (name.takeWhile (· ≠ '-'))

/-- openid/store/filestore.py:401-407: the loop of `cleanupNonces` -/
def removeStale (X : ExtraDigits) (c : Clock) (now : Nat) : List Str → Prog Nat
  | [] => return 0
  | name :: r => match stampOf X name with
    | .error e => .raise e
    | .ok t =>
      if outside c now t then do
        let _ ← removeIfPresent .nonces name
        let n ← removeStale X c now r
        return n + 1
      else removeStale X c now r

/-- openid/store/filestore.py:395-408 `cleanupNonces` -/
def cleanupNonces (X : ExtraDigits) (c : Clock) : Prog Nat :=
  .sys (.listdir .nonces) fun
    | .error _ => .raise .osError
    | .ok l => .sys .time fun now => removeStale X c now l

/-- what the file store needs to know about the world -/
structure World where
  sha1 : Sha1
  digits : ExtraDigits
  clock : Clock
  /-- bytes of an association that reach the system before the file is closed -/
  early : Nat

/-- the program of an operation -/
def program (W : World) : Op → Prog Answer
  | .storeAssociation url a => do
    storeAssociation W.sha1 W.early url a
    return .nothing
  | .getAssociation url h => do return .assoc (← getAssociation W.sha1 W.digits W.clock url h)
  | .removeAssociation url h => do return .bool (← removeAssociation W.sha1 W.digits W.clock url h)
  | .useNonce url t salt => do return .bool (← useNonce W.sha1 W.clock url t salt)
  | .cleanupNonces => do return .count (← cleanupNonces W.digits W.clock)
  | .cleanupAssociations => do return .count (← cleanupAssociations W.digits W.clock)

/-- Operations called one after the other, each running alone from start to end: the trace an observer sees
    and the files left. -/
inductive Ran (W : World) (E : Env) : FS → Trace → FS → Prop where
  | nil (fs : FS) : Ran W E fs [] fs
  | snoc {fs fs1 fs2 : FS} {tr : Trace} {now : Nat} {op : Op} {out : Outcome} (h : Ran W E fs tr fs1)
      (h' : Run E now fs1 (program W op) out fs2) : Ran W E fs (tr ++ [((now, op), out)]) fs2

end FileStore
