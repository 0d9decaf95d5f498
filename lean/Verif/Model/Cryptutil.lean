import Verif.Base.Base64
/-! # Model of openid/cryptutil.py and the base64 helpers of openid/oidutil.py -/

namespace Cryptutil
open Py

/-- hexadecimal digits of `n`, most significant first: the digit values of `'{:x}'.format(n)` -/
def hexDigitsAux : Nat → Nat → List Nat → List Nat
  | 0, _, acc => acc
  | fuel + 1, n, acc =>
    if n / 16 = 0 then n % 16 :: acc else hexDigitsAux fuel (n / 16) (n % 16 :: acc)

def hexDigits (n : Nat) : List Nat := hexDigitsAux (n + 1) n []

/-- `bytearray.fromhex` on an even number of digit values -/
def fromHex : List Nat → Bytes
  | a :: b :: r => UInt8.ofNat (16 * a + b) :: fromHex r
  | _ => []

/-- openid/cryptutil.py:35-49 `fix_btwoc`; `array[0]` on the empty string is an IndexError -/
def fixBtwoc (value : Bytes) : Except PyErr Bytes :=
  match value with
  | [] => .error .indexError
  | b :: r => if b.toNat > 127 then .ok (0 :: b :: r) else .ok (b :: r)

/-- openid/cryptutil.py:25-32 `bytes_to_int`: read the hex digits of the bytes in base 16.
    The empty string is a ValueError (`int('', 16)`). -/
def bytesToInt (value : Bytes) : Except PyErr Nat :=
  match value with
  | [] => .error .valueError
  | _ :: _ => .ok ((value.flatMap fun b => [b.toNat / 16, b.toNat % 16]).foldl
      (fun a d => a * 16 + d) 0)

/-- openid/cryptutil.py:52-64 `int_to_bytes`.  A negative value makes `fromhex` fail on the sign
    character: ValueError. -/
def intToBytes (value : Int) : Except PyErr Bytes :=
  match value with
  | .negSucc _ => .error .valueError
  | .ofNat n =>
    let hex := hexDigits n
    let hex := if hex.length % 2 = 1 then 0 :: hex else hex
    fixBtwoc (fromHex hex)

/-- openid/oidutil.py:108-114 `toBase64`: `b2a_base64(s)[:-1]` -/
def toBase64 (s : Bytes) : Str := (Base64.encode s ++ ['\n']).dropLast

/-- openid/oidutil.py:117-128 `fromBase64` (text input) -/
def fromBase64 (s : Str) : Except PyErr Bytes := Base64.decode s

/-- openid/cryptutil.py:78-79 `longToBase64` -/
def longToBase64 (n : Int) : Except PyErr Str := do return toBase64 (← intToBytes n)

/-- openid/cryptutil.py:82-83 `base64ToLong` -/
def base64ToLong (s : Str) : Except PyErr Nat := do bytesToInt (← fromBase64 s)

end Cryptutil
