import Verif.Spec.Arrival
/-
API functions that put data into the contract's memory.
-/
namespace Arwen.Spec
variable {χ A : Type}

/-- After `t`: the price has been paid and the data stands in the memory; no other byte has changed (the memory may have grown), and nothing
else. -/
def Wrote (s t : St χ A) (i price : Nat) (off : Int32) (data : Bytes) : Prop :=
  ∃ u mem, OnlyPaid s u i price ∧ t = { u with insts := fun j => if j = i then { u.insts i with mem := mem } else u.insts j } ∧
    Holds mem off data ∧ ∀ j, (j < off.toInt.toNat ∨ off.toInt.toNat + data.length ≤ j) → byteAt mem j = byteAt (s.insts i).mem j

/-- There is room for the data. -/
def Fits (s : St χ A) (i : Nat) (off : Int32) (data : Bytes) : Prop :=
  0 ≤ off.toInt ∧ off.toInt.toNat + data.length ≤ (s.insts i).mem.length

/-- The function puts the data into the memory and answers `r`. It does so whenever there is room, and otherwise may also fail the
execution. -/
structure Gives (E : Env χ A) (ex : Executor χ A) (p : Free χ A Int64) (s : St χ A) (i price : Nat) (off : Int32) (data : Bytes) (r : Int64) :
    Prop where
  room : Fits s i off data → ∃ t, interp E ex p s = (.ok r, t) ∧ Wrote s t i price off data
  always : ∃ r' t, interp E ex p s = (.ok r', t) ∧ (r' = r ∧ Wrote s t i price off data ∨ t.curBp = .executionFailed)

/-- The function pays its price and answers a number, and does nothing else. -/
def Tells (E : Env χ A) (ex : Executor χ A) (p : Free χ A Int64) (s : St χ A) (i price : Nat) (r : Int64) : Prop :=
  ∃ u, OnlyPaid s u i price ∧ interp E ex p s = (.ok r, u)

/-- The function pays its price, answers `r` and makes `v` the value behind the handle; nothing else changes. -/
def Sets (E : Env χ A) (ex : Executor χ A) (p : Free χ A Int64) (s : St χ A) (i price : Nat) (d : Int32) (v : Int) (r : Int64) : Prop :=
  ∃ u t, OnlyPaid s u i price ∧ interp E ex p s = (.ok r, t) ∧ t = { u with big := t.big } ∧ t.big.stack = s.big.stack ∧
    ∀ k, (t.big.vals.get? k).getD 0 = if k = d then v else (s.big.vals.get? k).getD 0

/-- The execution of the contract fails, and the gas it had left is gone. -/
def Refuses (E : Env χ A) (ex : Executor χ A) (p : Free χ A Int64) (s : St χ A) : Prop :=
  ∃ r t, interp E ex p s = (.ok r, t) ∧ t.curBp = .executionFailed

/-- the number that bytes stand for: unsigned, or signed in two's complement; the high byte comes first -/
def argValue (signed : Bool) (b : Bytes) : Int :=
  if signed = true ∧ 256 ^ b.length ≤ 2 * bytesToNat b then (bytesToNat b : Int) - 256 ^ b.length else bytesToNat b

/-- a 64-bit number, read as a signed or as an unsigned one -/
def wordValue (signed : Bool) (r : Int64) : Int := if signed then r.toInt else r.toUInt64.toNat

/-- the range of the 64-bit numbers -/
def InWord (signed : Bool) (v : Int) : Prop := if signed then -(2 ^ 63) ≤ v ∧ v < 2 ^ 63 else 0 ≤ v ∧ v < 2 ^ 64

/-- a number, as a result of an API function -/
def asResult (n : Nat) : Int64 := Int64.ofNat n

end Arwen.Spec
