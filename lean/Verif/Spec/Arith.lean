/-
Independent specifications for arithmetic and byte helpers, on unbounded integers.
-/
namespace Arwen.Spec

/-- the nearest value in `[0, 2^64)` -/
def clampU64 (z : Int) : Int := max 0 (min z (2 ^ 64 - 1))

/-- `z` is representable as a signed integer of `n` bits -/
def FitsSigned (n : Nat) (z : Int) : Prop := -(2 ^ (n - 1)) ≤ z ∧ z < 2 ^ (n - 1)

/-- value of a little-endian base-128 number; the top bit of each byte is ignored -/
def base128Value : List UInt8 → Nat
  | [] => 0
  | b :: bs => b.toNat % 128 + 128 * base128Value bs

/-- all bytes but the last carry the continuation bit, the last does not -/
def lebTerminated : List UInt8 → Prop
  | [] => False
  | [b] => b.toNat < 128
  | b :: bs => 128 ≤ b.toNat ∧ lebTerminated bs

end Arwen.Spec
