/-! # Specification vocabulary for integer encodings -/

namespace Spec

/-- the big-endian value of a byte string: Σ bᵢ·256^(position from the right) -/
def bigEndian : List UInt8 → Nat
  | [] => 0
  | b :: r => b.toNat * 256 ^ r.length + bigEndian r

/-- `b` is the OpenID `btwoc` encoding of `n`: the shortest big-endian two's complement
    representation: non-empty, first bit clear, no redundant leading zero byte, value `n`. -/
def IsBtwoc (n : Nat) (b : List UInt8) : Prop :=
  bigEndian b = n ∧
  (∃ x r, b = x :: r ∧ x.toNat < 128) ∧
  (∀ y r, b = 0 :: y :: r → 128 ≤ y.toNat)

end Spec
