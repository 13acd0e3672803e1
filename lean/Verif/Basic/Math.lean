/-
Overflow-aware machine arithmetic: model of `math/overflow.go`.
Go's `uint64`, `int64`, `int32` and (64-bit) `int` are Lean's wrapping
`UInt64`, `Int64`, `Int32`, `Int64`.  Logging is not modelled.
-/
namespace Arwen

/-- Largest `uint64` (Go `math.MaxUint64`). -/
def maxU64 : UInt64 := 0xFFFFFFFFFFFFFFFF
/-- Largest `int64` (Go `math.MaxInt64`). -/
def maxI64 : Int64 := 0x7FFFFFFFFFFFFFFF
/-- Smallest `int64` (Go `math.MinInt64`). -/
def minI64 : Int64 := -0x8000000000000000
/-- Largest `int32` (Go `math.MaxInt32`). -/
def maxI32 : Int32 := 0x7FFFFFFF

/-- `AddUint64WithErr`, math/overflow.go:23-30. `none` stands for `ErrAdditionOverflow`
(the wrapped sum returned next to the error is never used by callers). -/
def addU64E (a b : UInt64) : Option UInt64 :=
  let s := a + b
  if s ≥ a ∧ s ≥ b then some s else none

/-- `AddUint64`, math/overflow.go:12-20. -/
def addU64 (a b : UInt64) : UInt64 :=
  match addU64E a b with
  | some s => s
  | none => maxU64

/-- `AddInt64`, math/overflow.go:33-41. -/
def addI64 (a b : Int64) : Int64 :=
  let res := a + b
  if decide (res > a) == decide (b > 0) then res else maxI64

/-- `SubUint64`, math/overflow.go:44-50. -/
def subU64 (a b : UInt64) : UInt64 :=
  if a < b then 0 else a - b

/-- `MulUint64WithErr`, math/overflow.go:64-71. Go evaluates `res/b` only when `b ≠ 0`. -/
def mulU64E (a b : UInt64) : Option UInt64 :=
  let res := a * b
  if a = 0 ∨ b = 0 ∨ a = res / b then some res else none

/-- `MulUint64`, math/overflow.go:53-61. -/
def mulU64 (a b : UInt64) : UInt64 :=
  match mulU64E a b with
  | some s => s
  | none => maxU64

/-- `AddInt32WithError`, math/overflow.go:85-92. -/
def addI32E (a b : Int32) : Option Int32 :=
  let res := a + b
  if decide (res > a) == decide (b > 0) then some res else none

/-- `AddInt32`, math/overflow.go:74-82. -/
def addI32 (a b : Int32) : Int32 :=
  match addI32E a b with
  | some s => s
  | none => maxI32

/-- `SubInt`, math/overflow.go:95-103 (Go `int` is 64 bits wide). -/
def subInt (a b : Int64) : Int64 :=
  let res := a - b
  if decide (res < a) == decide (b > 0) then res else minI64

/-! ### Helper lemmas: values in `Nat` / `Int` -/

theorem toNat_lt (a : UInt64) : a.toNat < 18446744073709551616 := a.toNat_lt

@[simp] theorem maxU64_toNat : maxU64.toNat = 18446744073709551615 := rfl

theorem addU64E_spec (a b : UInt64) :
    addU64E a b = if a.toNat + b.toNat < 2 ^ 64 then some (a + b) else none := by
  have := toNat_lt a; have := toNat_lt b
  simp only [addU64E, ge_iff_le, UInt64.le_iff_toNat_le, UInt64.toNat_add]
  split <;> split <;> simp <;> omega

theorem addU64_toNat (a b : UInt64) :
    (addU64 a b).toNat = min (a.toNat + b.toNat) 18446744073709551615 := by
  have := toNat_lt a; have := toNat_lt b
  simp only [addU64, addU64E_spec]
  split
  · split at * <;> simp_all
    subst_vars
    simp; omega
  · split at * <;> simp_all
    omega

theorem subU64_toNat (a b : UInt64) : (subU64 a b).toNat = a.toNat - b.toNat := by
  have := toNat_lt a; have := toNat_lt b
  simp only [subU64, UInt64.lt_iff_toNat_lt]
  split
  · simp; omega
  · rw [UInt64.toNat_sub_of_le _ _ (by rw [UInt64.le_iff_toNat_le]; omega)]

theorem mulU64E_spec (a b : UInt64) :
    mulU64E a b = if a.toNat * b.toNat < 2 ^ 64 then some (a * b) else none := by
  have ha := toNat_lt a; have hb := toNat_lt b
  simp only [mulU64E, ← UInt64.toNat_inj, UInt64.toNat_div, UInt64.toNat_mul, UInt64.toNat_ofNat]
  by_cases h0 : b.toNat = 0
  · simp [h0]
  by_cases h1 : a.toNat = 0
  · simp [h1]
  by_cases hlt : a.toNat * b.toNat < 2 ^ 64
  · rw [if_pos hlt, if_pos]
    right; right
    rw [Nat.mod_eq_of_lt hlt, Nat.mul_div_cancel _ (by omega)]
  · rw [if_neg hlt, if_neg]
    simp only [not_or]
    refine ⟨by simpa using h1, by simpa using h0, ?_⟩
    intro he
    have h2 : a.toNat * b.toNat ≤ a.toNat * b.toNat % 2 ^ 64 := by
      conv => lhs; rw [he]
      exact Nat.div_mul_le_self _ _
    have h3 : a.toNat * b.toNat % 2 ^ 64 < 2 ^ 64 := Nat.mod_lt _ (by decide)
    omega

theorem mulU64_toNat (a b : UInt64) :
    (mulU64 a b).toNat = min (a.toNat * b.toNat) 18446744073709551615 := by
  simp only [mulU64, mulU64E_spec]
  by_cases hlt : a.toNat * b.toNat < 2 ^ 64
  · rw [if_pos hlt]
    simp only [UInt64.toNat_mul]
    rw [Nat.mod_eq_of_lt hlt]; omega
  · rw [if_neg hlt]
    simp only [maxU64_toNat]; omega

theorem int32_bounds (a : Int32) : -2147483648 ≤ a.toInt ∧ a.toInt < 2147483648 := by
  have := a.le_toInt; have := a.toInt_lt; omega

theorem int64_bounds (a : Int64) : -9223372036854775808 ≤ a.toInt ∧ a.toInt < 9223372036854775808 := by
  have := a.le_toInt; have := a.toInt_lt; omega

theorem bmod32 (x : Int) (h : -4294967296 ≤ x) (h' : x < 4294967295) :
    x.bmod (2 ^ 32) = if x < -2147483648 then x + 4294967296 else if x < 2147483648 then x else x - 4294967296 := by
  rw [Int.bmod_def]; split <;> split <;> try split
  all_goals omega

theorem bmod64 (x : Int) (h : -18446744073709551616 ≤ x) (h' : x ≤ 18446744073709551615) :
    x.bmod (2 ^ 64) = if x < -9223372036854775808 then x + 18446744073709551616
      else if x < 9223372036854775808 then x else x - 18446744073709551616 := by
  rw [Int.bmod_def]; split <;> split <;> try split
  all_goals omega

/-- the overflow test of the signed additions is exact -/
theorem addI32E_spec (a b : Int32) :
    addI32E a b = if -2147483648 ≤ a.toInt + b.toInt ∧ a.toInt + b.toInt < 2147483648 then some (a + b) else none := by
  have ha := int32_bounds a; have hb := int32_bounds b
  have hs := bmod32 (a.toInt + b.toInt) (by omega) (by omega)
  have h0 : (0 : Int32).toInt = 0 := rfl
  simp only [addI32E, gt_iff_lt, Int32.lt_iff_toInt_lt, h0]
  have hv : (a + b).toInt = (a.toInt + b.toInt).bmod (2 ^ 32) := Int32.toInt_add ..
  rw [hs] at hv
  by_cases h1 : a.toInt + b.toInt < -2147483648
  · rw [if_pos h1] at hv
    rw [if_neg (by rw [hv, beq_iff_eq, decide_eq_decide]; omega), if_neg (by omega)]
  · rw [if_neg h1] at hv
    by_cases h2 : a.toInt + b.toInt < 2147483648
    · rw [if_pos h2] at hv
      rw [if_pos (by rw [hv, beq_iff_eq, decide_eq_decide]; omega), if_pos (by omega)]
    · rw [if_neg h2] at hv
      rw [if_neg (by rw [hv, beq_iff_eq, decide_eq_decide]; omega), if_neg (by omega)]

end Arwen
