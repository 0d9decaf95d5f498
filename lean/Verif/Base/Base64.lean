import Verif.Base.Py
/-! # Base64 as in CPython's `binascii` (non-strict mode)

Not code of /repo; stdlib behaviour that /repo calls (`binascii.b2a_base64`,
`binascii.a2b_base64`, and `base64.b64decode`, which for text input is the latter). -/

namespace Base64
open Py

/-- the base64 alphabet -/
def alphabet : Str := t!"ABCDEFGHIJKLMNOPQRSTUVWXYZabcdefghijklmnopqrstuvwxyz0123456789+/"

/-- the character for a value below 64 -/
def encDigit (n : Nat) : Char :=
  if n < 26 then Char.ofNat (65 + n)
  else if n < 52 then Char.ofNat (97 + (n - 26))
  else if n < 62 then Char.ofNat (48 + (n - 52))
  else if n = 62 then '+' else '/'

/-- `table_a2b_base64` -/
def decDigit (c : Char) : Option Nat :=
  let n := c.toNat
  if 65 ≤ n ∧ n ≤ 90 then some (n - 65)
  else if 97 ≤ n ∧ n ≤ 122 then some (n - 97 + 26)
  else if 48 ≤ n ∧ n ≤ 57 then some (n - 48 + 52)
  else if c = '+' then some 62
  else if c = '/' then some 63
  else none

/-- `binascii.b2a_base64(b)` without the trailing newline it appends -/
def encode : Bytes → Str
  | [] => []
  | [a] => [encDigit (a.toNat / 4), encDigit (a.toNat % 4 * 16), '=', '=']
  | [a, b] => [encDigit (a.toNat / 4), encDigit (a.toNat % 4 * 16 + b.toNat / 16),
      encDigit (b.toNat % 16 * 4), '=']
  | a :: b :: c :: r =>
    encDigit (a.toNat / 4) :: encDigit (a.toNat % 4 * 16 + b.toNat / 16)
      :: encDigit (b.toNat % 16 * 4 + c.toNat / 64) :: encDigit (c.toNat % 64) :: encode r

/-- state of the decoding loop of `binascii.a2b_base64`: position in the quad (0-3), bits left over
    from the previous character, number of pad characters seen in this run -/
structure DecSt where
  quad : Nat
  left : Nat
  pads : Nat
  deriving DecidableEq, Repr

/-- the decoding loop of `binascii.a2b_base64` in non-strict mode -/
def decodeAux (st : DecSt) : Str → Except PyErr Bytes
  | [] => if st.quad = 0 then .ok [] else .error .valueError
  | c :: r =>
    if c = '=' then
      if 2 ≤ st.quad then
        if 4 ≤ st.quad + (st.pads + 1) then .ok []
        else decodeAux { st with pads := st.pads + 1 } r
      else decodeAux st r
    else match decDigit c with
      | none => decodeAux st r
      | some v =>
        if st.quad = 0 then decodeAux ⟨1, v, 0⟩ r
        else if st.quad = 1 then do
          let rest ← decodeAux ⟨2, v % 16, 0⟩ r
          return UInt8.ofNat (st.left * 4 + v / 16) :: rest
        else if st.quad = 2 then do
          let rest ← decodeAux ⟨3, v % 4, 0⟩ r
          return UInt8.ofNat (st.left * 16 + v / 4) :: rest
        else do
          let rest ← decodeAux ⟨0, 0, 0⟩ r
          return UInt8.ofNat (st.left * 64 + v) :: rest

/-- `binascii.a2b_base64(s)`: text must be ASCII; every failure is a `ValueError` -/
def decode (s : Str) : Except PyErr Bytes :=
  if isAscii s then decodeAux ⟨0, 0, 0⟩ s else .error .valueError

end Base64
