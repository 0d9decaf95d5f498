import Verif.Model.Cryptutil
/-! # Model of openid/dh.py

The `cryptography` package is outside /repo.  It enters as the parameter `Lib`: which parameters and
public keys it accepts, and how it writes the shared group element as bytes.  The group operation
itself (exponentiation modulo `p`) is modelled.  Hash functions are arbitrary functions on bytes.
Private keys are chosen by the library at random and are arbitrary here.  Deprecated integer
arguments and the deprecated `xorSecret`/`hash_func` path are not modelled. -/

namespace DH
open Py Cryptutil

/-- The part of the `cryptography` package used by openid/dh.py. -/
structure Lib where
  /-- `DHParameterNumbers(p, g).parameters(backend)` accepts these parameters -/
  okParams : Nat → Nat → Bool
  /-- `DHPublicNumbers(y, params).public_key(backend)` followed by `exchange` accepts this key -/
  okPub : Nat → Nat → Nat → Bool
  /-- bytes `private_key.exchange` returns for the shared element `z` modulo `p` -/
  sharedBytes : Nat → Nat → Bytes

/-- openid/constants.py:6-8 `DEFAULT_DH_MODULUS`, `DEFAULT_DH_GENERATOR` -/
def defaultModulus : Str := t!"ANz5OguIOXLsDhmYmsWizjEOHTdxfo2Vcbt2I3MYZuYe91ouJ4mLBX+YkcLiemOcPym2CBRYHNOyyjmG0mg3BVd9RcLn5S3IHHoXGHblzqdLFEi/368Ygo79JRnxTkXjgmY0rxlJ5bU1zIKaSDuKdiI+XUkKJX8Fvf8W8vsixYOr"
def defaultGenerator : Str := t!"Ag=="

/-- openid/dh.py:23-31 `strxor` -/
def strxor (x y : Bytes) : Except PyErr Bytes :=
  if x.length != y.length then .error .valueError
  else .ok (List.zipWith (fun a b => a ^^^ b) x y)

/-- openid/dh.py:34-52 `DiffieHellman`: parameters and private exponent -/
structure DiffieHellman where
  p : Nat
  g : Nat
  priv : Nat
  deriving DecidableEq, Repr

/-- openid/dh.py:37-54 `DiffieHellman.__init__` with base64 arguments; `priv` is the random private
    key the library generates -/
def DiffieHellman.new (L : Lib) (modulus generator : Str) (priv : Nat) :
    Except PyErr DiffieHellman := do
  let p ← base64ToLong modulus
  let g ← base64ToLong generator
  if L.okParams p g then return ⟨p, g, priv⟩ else throw .valueError

/-- openid/dh.py:56-59 `fromDefaults` -/
def DiffieHellman.fromDefaults (L : Lib) (priv : Nat) : Except PyErr DiffieHellman :=
  DiffieHellman.new L defaultModulus defaultGenerator priv

/-- openid/dh.py:79-88 `parameters` -/
def DiffieHellman.parameters (d : DiffieHellman) : Except PyErr (Str × Str) := do
  let m ← longToBase64 d.p
  let g ← longToBase64 d.g
  return (m, g)

/-- the public group element, `private_key.public_key().public_numbers().y` -/
def DiffieHellman.publicNumber (d : DiffieHellman) : Nat := d.g ^ d.priv % d.p

/-- openid/dh.py:99-105 `public_key` -/
def DiffieHellman.publicKey (d : DiffieHellman) : Except PyErr Str := longToBase64 d.publicNumber

/-- openid/dh.py:107-108 `usingDefaultValues` -/
def DiffieHellman.usingDefaultValues (d : DiffieHellman) : Except PyErr Bool := do
  let ps ← d.parameters
  return ps == (defaultModulus, defaultGenerator)

/-- openid/dh.py:120-128 `_get_shared_secret` -/
def DiffieHellman.getSharedSecret (L : Lib) (d : DiffieHellman) (publicKey : Str) :
    Except PyErr Bytes := do
  let y ← base64ToLong publicKey
  if L.okPub d.p d.g y then return L.sharedBytes d.p (y ^ d.priv % d.p) else throw .valueError

/-- openid/dh.py:141-160 `xor_secret`; `hash` is the digest algorithm -/
def DiffieHellman.xorSecret (L : Lib) (d : DiffieHellman) (publicKey secret : Str)
    (hash : Bytes → Bytes) : Except PyErr Str := do
  let shared ← d.getSharedSecret L publicKey
  let shared ← fixBtwoc shared
  let s ← Base64.decode secret
  let x ← strxor s (hash shared)
  return toBase64 x

end DH
