import Verif.Base.Py
import Verif.Base.PyInt
/-! # Specification: the calendar, by counting days

Independent of the arithmetic in the model: a date's successor is given by the month lengths, and the date
of the n-th day after 1970-01-01 is the n-th successor. -/

namespace Spec

/-- leap years of the Gregorian calendar -/
def leapYear (y : Nat) : Bool := (y % 4 = 0 ∧ y % 100 ≠ 0) ∨ y % 400 = 0

/-- the number of days of each month -/
def monthLengths (y : Nat) : List Nat :=
  [31, if leapYear y then 29 else 28, 31, 30, 31, 30, 31, 31, 30, 31, 30, 31]

/-- a date: year, month (from 1), day (from 1) -/
abbrev Date := Nat × Nat × Nat

/-- the number of days of a month -/
def monthLength (y m : Nat) : Nat := (monthLengths y).getD (m - 1) 0

/-- a date that exists -/
def DateOk : Date → Prop
  | (y, m, d) => 1 ≤ y ∧ 1 ≤ m ∧ m ≤ 12 ∧ 1 ≤ d ∧ d ≤ monthLength y m

instance (d : Date) : Decidable (DateOk d) := by unfold DateOk; infer_instance

/-- the day after -/
def nextDay : Date → Date
  | (y, m, d) =>
    if d < monthLength y m then (y, m, d + 1)
    else if m < 12 then (y, m + 1, 1)
    else (y + 1, 1, 1)

/-- the date `n` days after 1970-01-01 -/
def dateAfter : Nat → Date
  | 0 => (1970, 1, 1)
  | n + 1 => nextDay (dateAfter n)

/-- two decimal digits -/
def digits2 (n : Nat) : Py.Str := [Char.ofNat (48 + n / 10), Char.ofNat (48 + n % 10)]

/-- four decimal digits -/
def digits4 (n : Nat) : Py.Str := digits2 (n / 100) ++ digits2 (n % 100)

/-- ISO 8601 text of second `s` of day `n` after 1970-01-01, in UTC -/
def isoTime (n s : Nat) : Py.Str :=
  let d := dateAfter n
  digits4 d.1 ++ '-' :: digits2 d.2.1 ++ '-' :: digits2 d.2.2 ++ 'T' :: digits2 (s / 3600) ++ ':' ::
    digits2 (s / 60 % 60) ++ ':' :: digits2 (s % 60) ++ ['Z']

/-- `s` is a numeral for `n`: decimal digits, leading zeros allowed; `X` are the digits beyond ASCII -/
def Numeral (X : Py.ExtraDigits) (s : Py.Str) (n : Nat) : Prop :=
  ∃ ds : List Nat, s.map (Py.digitVal X) = ds.map some ∧ ds.foldl (fun a d => 10 * a + d) 0 = n

/-- a numeral of one or two digits -/
def Field (X : Py.ExtraDigits) (s : Py.Str) (n : Nat) : Prop := Numeral X s n ∧ (s.length = 1 ∨ s.length = 2)

/-- The text is a time: four digits, hyphen, month, hyphen, day, `T`, hours, colon, minutes, colon, seconds, `Z`;
    the letters may be lower case, numerals other than the year have one or two digits, and a day of one digit may
    have a space before it.  The date exists; seconds go up to 61. -/
def IsNonceTime (X : Py.ExtraDigits) (text : Py.Str) (date : Date) (h mi s : Nat) : Prop :=
  ∃ ys ms ds hs mis ss : Py.Str, ∃ t z : Char,
    text = ys ++ '-' :: ms ++ '-' :: ds ++ t :: hs ++ ':' :: mis ++ ':' :: ss ++ [z] ∧
    (t = 'T' ∨ t = 't') ∧ (z = 'Z' ∨ z = 'z') ∧ Numeral X ys date.1 ∧ ys.length = 4 ∧ Field X ms date.2.1 ∧
    (Field X ds date.2.2 ∨ ∃ c, ds = [' ', c] ∧ Field X [c] date.2.2) ∧
    Field X hs h ∧ Field X mis mi ∧ Field X ss s ∧ DateOk date ∧ h ≤ 23 ∧ mi ≤ 59 ∧ s ≤ 61

end Spec
