import Verif.Base.Py
/-! # UTF-8 as in CPython: `str.encode('utf-8')`, `bytes.decode('utf-8', errors=...)`

Not code of /repo; stdlib behaviour that /repo calls.  The decoder is the byte-wise state machine
with the maximal-subpart rule for malformed input that CPython implements. -/

namespace Utf8
open Py

/-- the bytes of one character -/
def encodeChar (c : Char) : Bytes :=
  let n := c.toNat
  if n < 0x80 then [UInt8.ofNat n]
  else if n < 0x800 then [UInt8.ofNat (0xC0 + n / 64), UInt8.ofNat (0x80 + n % 64)]
  else if n < 0x10000 then
    [UInt8.ofNat (0xE0 + n / 4096), UInt8.ofNat (0x80 + n / 64 % 64), UInt8.ofNat (0x80 + n % 64)]
  else
    [UInt8.ofNat (0xF0 + n / 262144), UInt8.ofNat (0x80 + n / 4096 % 64),
      UInt8.ofNat (0x80 + n / 64 % 64), UInt8.ofNat (0x80 + n % 64)]

/-- `s.encode('utf-8')` -/
def encode (s : Str) : Bytes := s.flatMap encodeChar

/-- decoder state: idle, or `k + 1` continuation bytes still to come with `acc` collected and the
    next byte required to lie in `lo ..= hi` -/
inductive St where
  | idle
  | pend (k acc lo hi : Nat)
  deriving DecidableEq, Repr

/-- first byte of a sequence -/
def start (b : Nat) : List (Option Char) × St :=
  if b < 0x80 then ([some (Char.ofNat b)], .idle)
  else if b < 0xC2 then ([none], .idle)
  else if b < 0xE0 then ([], .pend 0 (b - 0xC0) 0x80 0xBF)
  else if b = 0xE0 then ([], .pend 1 0 0xA0 0xBF)
  else if b = 0xED then ([], .pend 1 0xD 0x80 0x9F)
  else if b < 0xF0 then ([], .pend 1 (b - 0xE0) 0x80 0xBF)
  else if b = 0xF0 then ([], .pend 2 0 0x90 0xBF)
  else if b = 0xF4 then ([], .pend 2 4 0x80 0x8F)
  else if b < 0xF4 then ([], .pend 2 (b - 0xF0) 0x80 0xBF)
  else ([none], .idle)

/-- one byte; `none` in the output marks a decoding error -/
def step (st : St) (byte : UInt8) : List (Option Char) × St :=
  let b := byte.toNat
  match st with
  | .idle => start b
  | .pend k acc lo hi =>
    if lo ≤ b ∧ b ≤ hi then
      match k with
      | 0 => ([some (Char.ofNat (acc * 64 + (b - 0x80)))], .idle)
      | k + 1 => ([], .pend k (acc * 64 + (b - 0x80)) 0x80 0xBF)
    else (none :: (start b).1, (start b).2)

/-- end of input: an unfinished sequence is an error -/
def flush : St → List (Option Char)
  | .idle => []
  | .pend .. => [none]

def decodeFrom (st : St) : Bytes → List (Option Char)
  | [] => flush st
  | b :: r => (step st b).1 ++ decodeFrom (step st b).2 r

/-- `b.decode('utf-8')` -/
def decode (b : Bytes) : Except PyErr Str :=
  match (decodeFrom .idle b).mapM id with
  | some s => .ok s
  | none => .error .unicodeError

/-- what `errors='replace'` puts in place of an error -/
def orReplacement : Option Char → Char
  | some c => c
  | none => Char.ofNat 0xFFFD

/-- `b.decode('utf-8', 'replace')` -/
def decodeReplace (b : Bytes) : Str := (decodeFrom .idle b).map orReplacement

end Utf8
