/-!
# Python text, lists and dictionaries

The small part of Python's built-in types that python-openid relies on, as total
computable functions.  Text is a list of Unicode scalar values (`Char`); Python strings
holding lone surrogates are therefore outside the model.  Nothing in this file models a
file of /repo; it models built-ins that /repo calls (`str.split`, `str.strip`,
`str.startswith`, `sorted`, `dict`).
-/

/-- `t!"abc"` is the list of characters `['a', 'b', 'c']`. -/
macro:max "t!" s:str : term => do
  let cs := s.getString.toList.map fun c => (Lean.Syntax.mkCharLit c : Lean.TSyntax `term)
  let arr := cs.toArray
  `(([$arr,*] : List Char))

namespace Py

/-- Python `str`. -/
abbrev Str := List Char

/-- Python `bytes`. -/
abbrev Bytes := List UInt8

/-- The exception classes that matter for control flow.  Payload texts are dropped.
    `isValueError`, `isKeyError` give the subclass relation used by `except` clauses. -/
inductive PyErr where
  | valueError | keyError | indexError | assertionError | typeError | attributeError
  | runtimeError | unicodeError | osError | lookupError
  /-- openid/kvform.py:15 `class KVFormError(ValueError)` -/
  | kvFormError
  /-- openid/message.py:67 `class UndefinedOpenIDNamespace(ValueError)` -/
  | undefinedOpenIDNamespace
  /-- openid/message.py:71 `class InvalidOpenIDNamespace(ValueError)` -/
  | invalidOpenIDNamespace
  /-- openid/message.py:84 `class InvalidNamespace(KeyError)` -/
  | invalidNamespace
  /-- the database driver's `IntegrityError`: a uniqueness constraint is violated -/
  | integrityError
  /-- the database driver's `OperationalError`; `true` when its text is the one
      openid/store/sqlstore.py:379 looks for, "columns ... are not unique" -/
  | operationalError (notUnique : Bool)
  /-- openid/yadis/discover.py `class DiscoveryFailure(Exception)` -/
  | discoveryFailure
  /-- openid/server/trustroot.py:72 `class RealmVerificationRedirected(Exception)` -/
  | realmRedirected
  /-- openid/fetchers.py `class HTTPFetchingError(Exception)` -/
  | fetchingError
  /-- openid/consumer/consumer.py:525 `class ProtocolError(ValueError)` -/
  | protocolError
  /-- openid/consumer/consumer.py:530 `class TypeURIMismatch(ProtocolError)` -/
  | typeURIMismatch
  /-- openid/yadis/etxrd.py `class XRDSError(Exception)` -/
  | xrdsError
  /-- openid/yadis/etxrd.py `class XRDSFraud(XRDSError)` -/
  | xrdsFraud
  /-- openid/extensions/ax.py `class AXError(ValueError)` -/
  | axError
  /-- openid/extensions/ax.py `class NotAXMessage(AXError)` -/
  | notAXMessage
  deriving DecidableEq, Repr

/-- caught by `except ValueError` -/
def PyErr.isValueError : PyErr → Bool
  | .valueError | .unicodeError | .kvFormError | .undefinedOpenIDNamespace
  | .invalidOpenIDNamespace | .protocolError | .typeURIMismatch | .axError | .notAXMessage => true
  | _ => false

/-- caught by `except KeyError` -/
def PyErr.isKeyError : PyErr → Bool
  | .keyError | .invalidNamespace => true
  | _ => false

instance instDecidableEqExcept [DecidableEq ε] [DecidableEq α] : DecidableEq (Except ε α)
  | .ok a, .ok b => if h : a = b then .isTrue (h ▸ rfl) else .isFalse (fun e => h (by cases e; rfl))
  | .error a, .error b =>
    if h : a = b then .isTrue (h ▸ rfl) else .isFalse (fun e => h (by cases e; rfl))
  | .ok _, .error _ => .isFalse (fun e => by cases e)
  | .error _, .ok _ => .isFalse (fun e => by cases e)

/-! ## Text -/

/-- Characters removed by `str.strip()` with no argument (CPython `Py_UNICODE_ISSPACE`). -/
def isSpace (c : Char) : Bool :=
  let n := c.toNat
  (9 ≤ n && n ≤ 13) || (28 ≤ n && n ≤ 32) || n == 0x85 || n == 0xA0 || n == 0x1680
    || (0x2000 ≤ n && n ≤ 0x200A) || n == 0x2028 || n == 0x2029 || n == 0x202F
    || n == 0x205F || n == 0x3000

/-- `s.lstrip()` -/
def lstrip (s : Str) : Str := s.dropWhile isSpace

/-- `s.rstrip()`: keep everything up to the last non-space character. -/
def rstrip : Str → Str
  | [] => []
  | c :: s => match rstrip s with
    | [] => if isSpace c then [] else [c]
    | t => c :: t

/-- `s.strip()` -/
def strip (s : Str) : Str := rstrip (lstrip s)

/-- `s.split(c)` for a one-character separator; always at least one piece. -/
def splitOn (c : Char) : Str → List Str
  | [] => [[]]
  | x :: xs =>
    if x = c then [] :: splitOn c xs
    else match splitOn c xs with
      | [] => [[x]]
      | y :: ys => (x :: y) :: ys

/-- `s.partition(c)` for a one-character separator: the parts around the first occurrence,
    or `none` if there is none.  Also `s.split(c, 1)`. -/
def cut (c : Char) : Str → Option (Str × Str)
  | [] => none
  | x :: xs => if x = c then some ([], xs) else (cut c xs).map fun p => (x :: p.1, p.2)

/-- `s.rpartition(c)`: the parts around the last occurrence. -/
def rcut (c : Char) : Str → Option (Str × Str)
  | [] => none
  | x :: xs => match rcut c xs with
    | some p => some (x :: p.1, p.2)
    | none => if x = c then some ([], xs) else none

/-- `s.startswith(p)` -/
def startsWith (s p : Str) : Bool := p.isPrefixOf s

/-- `s.endswith(p)` -/
def endsWith (s p : Str) : Bool := p.isSuffixOf s

/-- `sep.join(parts)` -/
def join (sep : Str) : List Str → Str
  | [] => []
  | [x] => x
  | x :: y :: r => x ++ sep ++ join sep (y :: r)

/-- `s.replace(a, b)` for one-character `a`. -/
def replaceChar (a : Char) (b : Str) (s : Str) : Str :=
  s.flatMap fun c => if c = a then b else [c]

/-- text comparison `a <= b` by code points -/
def strLe : Str → Str → Bool
  | [], _ => true
  | _ :: _, [] => false
  | a :: s, b :: t => if a = b then strLe s t else a.toNat < b.toNat

/-- stable insertion sort; `sorted(l)` when `le` is the comparison -/
def insertBy (le : α → α → Bool) (x : α) : List α → List α
  | [] => [x]
  | y :: r => if le x y then x :: y :: r else y :: insertBy le x r

def sortBy (le : α → α → Bool) : List α → List α
  | [] => []
  | x :: r => insertBy le x (sortBy le r)

/-- ASCII `str.lower` on one character -/
def asciiLowerChar (c : Char) : Char :=
  if 65 ≤ c.toNat ∧ c.toNat ≤ 90 then Char.ofNat (c.toNat + 32) else c

def isAscii (s : Str) : Bool := s.all fun c => c.toNat < 128

/-- decimal digits, most significant first: `six.text_type(n)` for `n ≥ 0` -/
def natDigitsAux : Nat → Nat → Str → Str
  | 0, _, acc => acc
  | fuel + 1, n, acc =>
    let acc' := Char.ofNat (48 + n % 10) :: acc
    if n / 10 = 0 then acc' else natDigitsAux fuel (n / 10) acc'

def natToStr (n : Nat) : Str := natDigitsAux (n + 1) n []

/-- `six.text_type(i)` for an integer -/
def intToStr : Int → Str
  | .ofNat n => natToStr n
  | .negSucc n => '-' :: natToStr (n + 1)

/-! ## Dictionaries (insertion ordered, as in CPython 3.7+) -/

abbrev Dict (α β : Type) := List (α × β)

namespace Dict
variable {α β : Type} [DecidableEq α]

/-- `d.get(k)` -/
def get? : Dict α β → α → Option β
  | [], _ => none
  | (k, v) :: r, a => if k = a then some v else get? r a

/-- `k in d` -/
def has (d : Dict α β) (a : α) : Bool := (get? d a).isSome

/-- `d[k] = v` -/
def set : Dict α β → α → β → Dict α β
  | [], a, b => [(a, b)]
  | (k, v) :: r, a, b => if k = a then (k, b) :: r else (k, v) :: set r a b

/-- `del d[k]` when present; unchanged otherwise -/
def del : Dict α β → α → Dict α β
  | [], _ => []
  | (k, v) :: r, a => if k = a then r else (k, v) :: del r a

def keys (d : Dict α β) : List α := d.map (·.1)

/-- `d.update(e)` -/
def update (d e : Dict α β) : Dict α β := e.foldl (fun d p => set d p.1 p.2) d

/-- `dict(pairs)`: later pairs win -/
def ofPairs (ps : List (α × β)) : Dict α β := update [] ps

/-- every key occurs once: what a Python `dict` guarantees -/
def WF (d : Dict α β) : Prop := (keys d).Nodup

instance (d : Dict α β) : Decidable (WF d) := inferInstanceAs (Decidable (List.Nodup _))

/-- Python `==` on dictionaries: the same finite map -/
def Same (d e : Dict α β) : Prop := ∀ k, get? d k = get? e k

end Dict
end Py
