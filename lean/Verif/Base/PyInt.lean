import Verif.Base.Py
/-! # Python's `int(text)` -/

namespace Py

/-- The decimal digits outside ASCII (`unicodedata.decimal`); left open, any function will do. -/
abbrev ExtraDigits := Char → Option Nat

/-- the value of a decimal digit -/
def digitVal (X : ExtraDigits) (c : Char) : Option Nat :=
  if 48 ≤ c.toNat ∧ c.toNat ≤ 57 then some (c.toNat - 48) else X c

/-- digits, with single underscores between digits allowed (PEP 515): `acc` is the value so far,
    `sep` whether the previous character was an underscore (or there was none) -/
def intDigits (X : ExtraDigits) (acc : Nat) (sep : Bool) : Str → Option Nat
  | [] => if sep then none else some acc
  | c :: r =>
    match digitVal X c with
    | some d => intDigits X (acc * 10 + d) false r
    | none => if c = '_' && !sep then intDigits X acc true r else none

/-- CPython `int(text)`: surrounding whitespace, a sign, digits; anything else is ValueError.
    The limit of 4300 digits of newer CPython releases is not modelled. -/
def parseInt (X : ExtraDigits) (s : Str) : Except PyErr Int :=
  let r := match strip s with
    | '-' :: r => (intDigits X 0 true r).map fun (n : Nat) => -(n : Int)
    | '+' :: r => (intDigits X 0 true r).map fun (n : Nat) => (n : Int)
    | r => (intDigits X 0 true r).map fun (n : Nat) => (n : Int)
  match r with
  | some i => .ok i
  | none => .error .valueError

end Py
