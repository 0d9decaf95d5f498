import Verif.Base.Utf8
/-! # Percent encoding and query strings as in CPython's `urllib.parse`

Not code of /repo; stdlib behaviour that /repo calls: `quote`, `quote_plus`, `unquote`, `urlencode`,
`parse_qsl`. -/

namespace Percent
open Py

/-- `_ALWAYS_SAFE`: letters, digits and `_.-~` -/
def alwaysSafe (b : UInt8) : Bool :=
  let n := b.toNat
  (65 ≤ n && n ≤ 90) || (97 ≤ n && n ≤ 122) || (48 ≤ n && n ≤ 57)
    || n == 95 || n == 46 || n == 45 || n == 126

/-- upper-case hexadecimal digit -/
def hexUpper (n : Nat) : Char := if n < 10 then Char.ofNat (48 + n) else Char.ofNat (55 + n)

/-- `'%{:02X}'.format(b)` -/
def pct (b : UInt8) : Str := ['%', hexUpper (b.toNat / 16), hexUpper (b.toNat % 16)]

/-- `quote(bytes, safe)`; `safe` restricted to ASCII characters -/
def quoteBytes (safe : Str) (bs : Bytes) : Str :=
  bs.flatMap fun b =>
    if alwaysSafe b || (b.toNat < 128 && safe.contains (Char.ofNat b.toNat))
    then [Char.ofNat b.toNat] else pct b

/-- `quote(s, safe)` -/
def quote (safe s : Str) : Str := quoteBytes safe (Utf8.encode s)

/-- `quote_plus(bytes)`: space becomes `+` -/
def quotePlusBytes (bs : Bytes) : Str :=
  bs.flatMap fun b =>
    if b.toNat = 32 then ['+'] else if alwaysSafe b then [Char.ofNat b.toNat] else pct b

/-- value of a hexadecimal digit, either case -/
def hexVal (c : Char) : Option Nat :=
  let n := c.toNat
  if 48 ≤ n ∧ n ≤ 57 then some (n - 48)
  else if 65 ≤ n ∧ n ≤ 70 then some (n - 55)
  else if 97 ≤ n ∧ n ≤ 102 then some (n - 87)
  else none

/-- `_hextobyte` lookup of two characters -/
def hexPair (a b : Char) : Option UInt8 :=
  match hexVal a, hexVal b with
  | some x, some y => some (UInt8.ofNat (16 * x + y))
  | _, _ => none

/-- `unquote`, from a decoder state: a run of ASCII characters is percent-decoded to bytes and those
    are decoded with errors='replace'; a non-ASCII character ends the run. -/
def unquoteFrom (st : Utf8.St) : Str → List (Option Char)
  | [] => Utf8.flush st
  | '%' :: a :: b :: r =>
    match hexPair a b with
    | some byte => (Utf8.step st byte).1 ++ unquoteFrom (Utf8.step st byte).2 r
    | none => (Utf8.step st 37).1 ++ unquoteFrom (Utf8.step st 37).2 (a :: b :: r)
  | c :: r =>
    if c.toNat < 128 then
      (Utf8.step st (UInt8.ofNat c.toNat)).1 ++ unquoteFrom (Utf8.step st (UInt8.ofNat c.toNat)).2 r
    else Utf8.flush st ++ some c :: unquoteFrom .idle r

/-- `unquote(s)` -/
def unquote (s : Str) : Str := (unquoteFrom .idle s).map Utf8.orReplacement

/-- `unquote_plus(s)` -/
def unquotePlus (s : Str) : Str := unquote (s.map fun c => if c = '+' then ' ' else c)

/-- `urlencode(pairs)` where the texts were encoded to UTF-8 first -/
def urlencode (args : List (Str × Str)) : Str :=
  join ['&'] (args.map fun p =>
    quotePlusBytes (Utf8.encode p.1) ++ '=' :: quotePlusBytes (Utf8.encode p.2))

/-- one field of `parse_qsl` -/
def parseField (keepBlank : Bool) (nv : Str) : Option (Str × Str) :=
  if nv = [] then none
  else match cut '=' nv with
    | none => if keepBlank then some (unquotePlus nv, []) else none
    | some (n, v) => if v != [] || keepBlank then some (unquotePlus n, unquotePlus v) else none

/-- `parse_qsl(qs, keep_blank_values)` -/
def parseQsl (keepBlank : Bool) (qs : Str) : List (Str × Str) :=
  (splitOn '&' qs).filterMap (parseField keepBlank)

end Percent
