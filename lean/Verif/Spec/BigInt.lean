import Verif.Eei.BigInt
/-
Independent specification of the big-integer operations: what it means for `v` to be the result, as relations on integers.
A relation that no `v` satisfies means that the operation must fail.
-/
namespace Arwen.Spec
open Arwen.Eei

/-- `v` is the result of a binary operation on `a` and `b`. -/
def BinResult : BinOp → Int → Int → Int → Prop
  | .add, a, b, v => v = a + b
  | .sub, a, b, v => v + b = a
  | .mul, a, b, v => v = a * b
  -- truncated division: the remainder is smaller than the divisor and has the sign of the dividend
  | .tdiv, a, b, v => b ≠ 0 ∧ (a - v * b).natAbs < b.natAbs ∧ 0 ≤ (a - v * b) * a
  | .tmod, a, b, v => b ≠ 0 ∧ v.natAbs < b.natAbs ∧ 0 ≤ v * a ∧ ∃ q, a = q * b + v
  -- Euclidean division: the remainder is between 0 and the absolute value of the divisor
  | .ediv, a, b, v => b ≠ 0 ∧ 0 ≤ a - v * b ∧ a - v * b < b.natAbs
  | .emod, a, b, v => b ≠ 0 ∧ 0 ≤ v ∧ v < b.natAbs ∧ ∃ q, a = q * b + v
  -- bit by bit, on non-negative integers only
  | .and, a, b, v => 0 ≤ a ∧ 0 ≤ b ∧ 0 ≤ v ∧ ∀ i, v.toNat.testBit i = (a.toNat.testBit i && b.toNat.testBit i)
  | .or, a, b, v => 0 ≤ a ∧ 0 ≤ b ∧ 0 ≤ v ∧ ∀ i, v.toNat.testBit i = (a.toNat.testBit i || b.toNat.testBit i)
  | .xor, a, b, v => 0 ≤ a ∧ 0 ≤ b ∧ 0 ≤ v ∧ ∀ i, v.toNat.testBit i = (a.toNat.testBit i != b.toNat.testBit i)

/-- `v` is the result of a unary operation on `a`. -/
def UnResult : UnOp → Int → Int → Prop
  | .abs, a, v => 0 ≤ v ∧ (v = a ∨ v = -a)
  | .neg, a, v => v + a = 0
  | .not, a, v => 0 ≤ a ∧ v = -(a + 1)

/-- `v` is the result of shifting `a`. -/
def ShiftResult : ShiftOp → Int → Int → Int → Prop
  | .shl, a, n, v => 0 ≤ a ∧ 0 ≤ n ∧ v = a * 2 ^ n.toNat
  | .shr, a, n, v => 0 ≤ a ∧ 0 ≤ n ∧ v * 2 ^ n.toNat ≤ a ∧ a < (v + 1) * 2 ^ n.toNat

end Arwen.Spec
