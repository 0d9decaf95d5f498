import Verif.Base.PyInt
/-! # Model of openid/store/nonce.py

The parts of the standard library it uses are modelled from CPython 3.11: `time.strptime` for the one
format used (Lib/_strptime.py), `calendar.timegm`, `time.gmtime` and `time.strftime`.  The decimal digits
outside ASCII, which `\d` also matches, are the parameter `X`.  Random salts are arguments.  Not modelled:
bytes input (deprecated). -/

namespace Nonce
open Py

/-- openid/store/nonce.py:23 `SKEW` -/
def SKEW : Int := 60 * 60 * 5

/-- openid/store/nonce.py:26 `time_str_len` -/
def timeStrLen : Nat := 20

/-! ## Calendar (CPython Lib/datetime.py, the proleptic Gregorian calendar) -/

/-- Lib/datetime.py `_is_leap` -/
def isLeap (y : Nat) : Bool := y % 4 = 0 ∧ (y % 100 ≠ 0 ∨ y % 400 = 0)

/-- Lib/datetime.py `_DAYS_IN_MONTH` -/
def monthDays : Nat → Nat
  | 1 => 31 | 2 => 28 | 3 => 31 | 4 => 30 | 5 => 31 | 6 => 30
  | 7 => 31 | 8 => 31 | 9 => 30 | 10 => 31 | 11 => 30 | 12 => 31
  | _ => 0

/-- Lib/datetime.py `_days_in_month` -/
def daysInMonth (leap : Bool) (m : Nat) : Nat := if m = 2 ∧ leap then 29 else monthDays m

/-- Lib/datetime.py `_DAYS_BEFORE_MONTH` -/
def monthStart : Nat → Nat
  | 1 => 0 | 2 => 31 | 3 => 59 | 4 => 90 | 5 => 120 | 6 => 151
  | 7 => 181 | 8 => 212 | 9 => 243 | 10 => 273 | 11 => 304 | 12 => 334
  | _ => 0

/-- Lib/datetime.py `_days_before_month` -/
def daysBeforeMonth (leap : Bool) (m : Nat) : Nat := monthStart m + (if m > 2 ∧ leap then 1 else 0)

/-- Lib/datetime.py `_days_before_year` -/
def daysBeforeYear (y : Nat) : Nat := (y - 1) * 365 + (y - 1) / 4 - (y - 1) / 100 + (y - 1) / 400

/-- Lib/datetime.py `_ymd2ord` -/
def toOrdinal (y m d : Nat) : Nat := daysBeforeYear y + daysBeforeMonth (isLeap y) m + d

/-- Lib/datetime.py `_ord2ymd`, the part within a year: month and day of day number `n` (from 0) -/
def monthDay (leap : Bool) (n : Nat) : Nat × Nat :=
  let month := (n + 50) / 32
  let preceding := daysBeforeMonth leap month
  if preceding > n then (month - 1, n - (preceding - daysInMonth leap (month - 1)) + 1)
  else (month, n - preceding + 1)

/-- Lib/datetime.py `_ord2ymd` -/
def fromOrdinal (ord : Nat) : Nat × Nat × Nat :=
  let n := ord - 1
  let n400 := n / 146097
  let n := n % 146097
  let n100 := n / 36524
  let n := n % 36524
  let n4 := n / 1461
  let n := n % 1461
  let n1 := n / 365
  let n := n % 365
  let year := n400 * 400 + 1 + n100 * 100 + n4 * 4 + n1
  if n1 = 4 ∨ n100 = 4 then (year - 1, 12, 31)
  else
    let leap : Bool := n1 = 3 ∧ (n4 ≠ 24 ∨ n100 = 3)
    (year, monthDay leap n)

/-- the first six fields of `time.struct_time` -/
structure Tm where
  year : Nat
  month : Nat
  day : Nat
  hour : Nat
  min : Nat
  sec : Nat
  deriving DecidableEq, Repr

/-- Lib/calendar.py `_EPOCH_ORD` -/
def epochOrd : Nat := 719163

/-- Lib/calendar.py `timegm` -/
def timegm (t : Tm) : Int :=
  let days : Int := (toOrdinal t.year t.month 1 : Int) - epochOrd + t.day - 1
  ((days * 24 + t.hour) * 60 + t.min) * 60 + t.sec

/-- a date and the time of day of `w` -/
def tmOf (date : Nat × Nat × Nat) (w : Nat) : Tm :=
  ⟨date.1, date.2.1, date.2.2, w % 86400 / 3600, w % 3600 / 60, w % 60⟩

/-- `time.gmtime(when)` for a non-negative number of seconds -/
def gmtime (w : Nat) : Tm := tmOf (fromOrdinal (w / 86400 + epochOrd)) w

/-! ## strftime and strptime for `%Y-%m-%dT%H:%M:%SZ` (nonce.py:25) -/

/-- a number in two digits (`%m`, `%d`, `%H`, `%M`, `%S`) -/
def pad2 (n : Nat) : Str := [Char.ofNat (48 + n / 10), Char.ofNat (48 + n % 10)]

/-- `strftime(time_fmt, t)`; `%Y` writes the year without padding -/
def strftime (t : Tm) : Str :=
  natToStr t.year ++ '-' :: pad2 t.month ++ '-' :: pad2 t.day ++ 'T' :: pad2 t.hour ++ ':' ::
    pad2 t.min ++ ':' :: pad2 t.sec ++ ['Z']

/-- the parts around the first character that satisfies `p` -/
def cutBy (p : Char → Bool) : Str → Option (Str × Str)
  | [] => none
  | x :: xs => if p x then some ([], xs) else (cutBy p xs).map fun q => (x :: q.1, q.2)

/-- an ASCII digit between two bounds: `[a-b]` in a pattern -/
def rng (a b : Nat) (c : Char) : Option Nat :=
  if 48 + a ≤ c.toNat ∧ c.toNat ≤ 48 + b then some (c.toNat - 48) else none

/-- two digits matched by two patterns: the value read by `int` -/
def two (a b : Option Nat) : Option Nat :=
  match a, b with
  | some a, some b => some (10 * a + b)
  | _, _ => none

/-- Lib/_strptime.py `%Y`: `\d\d\d\d` -/
def pYear (X : ExtraDigits) : Str → Option Nat
  | [a, b, c, d] => two (two (two (digitVal X a) (digitVal X b)) (digitVal X c)) (digitVal X d)
  | _ => none

/-- Lib/_strptime.py `%m`: `1[0-2]|0[1-9]|[1-9]` -/
def pMonth : Str → Option Nat
  | [a] => rng 1 9 a
  | [a, b] => (two (rng 1 1 a) (rng 0 2 b)).or (two (rng 0 0 a) (rng 1 9 b))
  | _ => none

/-- Lib/_strptime.py `%d`: `3[0-1]|[1-2]\d|0[1-9]|[1-9]| [1-9]` -/
def pDay (X : ExtraDigits) : Str → Option Nat
  | [a] => rng 1 9 a
  | [a, b] =>
    if a = ' ' then rng 1 9 b
    else (two (rng 3 3 a) (rng 0 1 b)).or
      ((two (rng 1 2 a) (digitVal X b)).or (two (rng 0 0 a) (rng 1 9 b)))
  | _ => none

/-- Lib/_strptime.py `%H`: `2[0-3]|[0-1]\d|\d` -/
def pHour (X : ExtraDigits) : Str → Option Nat
  | [a] => digitVal X a
  | [a, b] => (two (rng 2 2 a) (rng 0 3 b)).or (two (rng 0 1 a) (digitVal X b))
  | _ => none

/-- Lib/_strptime.py `%M`: `[0-5]\d|\d` -/
def pMin (X : ExtraDigits) : Str → Option Nat
  | [a] => digitVal X a
  | [a, b] => two (rng 0 5 a) (digitVal X b)
  | _ => none

/-- Lib/_strptime.py `%S`: `6[0-1]|[0-5]\d|\d` -/
def pSec (X : ExtraDigits) : Str → Option Nat
  | [a] => digitVal X a
  | [a, b] => (two (rng 6 6 a) (rng 0 1 b)).or (two (rng 0 5 a) (digitVal X b))
  | _ => none

/-- The pattern of the whole format, matched ignoring case.  No field matches one of the literal
    characters, so a match is found exactly by cutting at the first occurrence of each. -/
def matchTime (X : ExtraDigits) (s : Str) : Option Tm := do
  let (y, s) ← cutBy (· == '-') s
  let (m, s) ← cutBy (· == '-') s
  let (d, s) ← cutBy (fun c => c == 'T' || c == 't') s
  let (h, s) ← cutBy (· == ':') s
  let (mi, s) ← cutBy (· == ':') s
  let (se, s) ← cutBy (fun c => c == 'Z' || c == 'z') s
  let y ← pYear X y
  let m ← pMonth m
  let d ← pDay X d
  let h ← pHour X h
  let mi ← pMin X mi
  let se ← pSec X se
  if s = [] then some ⟨y, m, d, h, mi, se⟩ else none

/-- `datetime.date(y, m, d)` accepts the date -/
def validDate (y m d : Nat) : Bool :=
  1 ≤ y ∧ y ≤ 9999 ∧ 1 ≤ m ∧ m ≤ 12 ∧ 1 ≤ d ∧ d ≤ daysInMonth (isLeap y) m

/-- `time.strptime(s, time_fmt)`: the match must reach the end and the date must exist -/
def strptime (X : ExtraDigits) (s : Str) : Except PyErr Tm :=
  match matchTime X s with
  | some t => if validDate t.year t.month t.day then .ok t else .error .valueError
  | none => .error .valueError

/-! ## The functions of nonce.py -/

/-- openid/store/nonce.py:29-48 `split` -/
def split (X : ExtraDigits) (nonce : Str) : Except PyErr (Int × Str) := do
  let t ← strptime X (nonce.take timeStrLen)
  let stamp := timegm t
  if stamp < 0 then throw .valueError
  else return (stamp, nonce.drop timeStrLen)

/-- openid/store/nonce.py:51-85 `checkTimestamp`.  `now` and `skew` are counted in units of `1/scale`
    seconds, since `time()` is a float. -/
def checkTimestamp (X : ExtraDigits) (scale : Nat) (skew now : Int) (nonce : Str) : Bool :=
  match split X nonce with
  | .error _ => false
  | .ok (stamp, _) => now - skew ≤ stamp * scale ∧ stamp * scale ≤ now + skew

/-- openid/store/nonce.py:101-120 `mkNonce`, with the salt of `make_nonce_salt` (88-98) -/
def mkNonce (w : Nat) (salt : Str) : Str := strftime (gmtime w) ++ salt

end Nonce
