import Verif.Spec.Entries
import Verif.Spec.BigInt
/-
Numbers, hashes and signatures, as contracts use them.
-/
namespace Arwen.Spec
open Arwen.Eei
variable {χ A : Type}

/-- the number of bits of a number, without its sign -/
def bits (v : Int) : Nat := if v = 0 then 0 else v.natAbs.log2 + 1

/-- what a number costs by its size: nothing up to 32 bytes, then each byte -/
def sizePrice (g : GasSchedule) (v : Int) : Nat := if 33 ≤ bits v / 8 then g.dataCopyPerByte.toNat * (bits v / 8) else 0

/-- the price of an operation on these numbers -/
def sizesPrice (g : GasSchedule) (vs : List Int) : Nat := (vs.map (sizePrice g)).sum

/-- After `t`: the price has been paid, and every handle has the number that it had; nothing else has changed. -/
structure Looked (s t : St χ A) (i price : Nat) : Prop where
  paid : OnlyPaid s { t with big := s.big } i price
  handles : SameHandles s t

/-- The function pays its price and answers `r`; all numbers stay as they are, and so does everything else. -/
def TellsNumber (E : Env χ A) (ex : Executor χ A) (p : Free χ A Int64) (s : St χ A) (i price : Nat) (r : Int64) : Prop :=
  ∃ t, interp E ex p s = (.ok r, t) ∧ Looked s t i price

/-- The function puts bytes into the memory and answers `r`, whenever there is room, and otherwise may also fail the execution; all
numbers stay as they are. -/
structure GivesNumber (E : Env χ A) (ex : Executor χ A) (p : Free χ A Int64) (s : St χ A) (i price : Nat) (off : Int32) (data : Bytes) (r : Int64) :
    Prop where
  room : Fits s i off data → ∃ t, interp E ex p s = (.ok r, t) ∧ Wrote s { t with big := s.big } i price off data ∧ SameHandles s t
  always : ∃ r' t, interp E ex p s = (.ok r', t) ∧
    (r' = r ∧ Wrote s { t with big := s.big } i price off data ∧ SameHandles s t ∨ t.curBp = .executionFailed)

/-- the price of an operation: multiplication and truncated division have their own -/
def binPrice (g : GasSchedule) : BinOp → Nat
  | .mul => (g.api .bigIntMul).toNat
  | .tdiv => (g.api .bigIntTDiv).toNat
  | _ => (g.api .bigIntSub).toNat

/-- the numbers that are paid by their size: the operands, and for arithmetic also the number that is overwritten -/
def binPaid (op : BinOp) (old a b : Int) : List Int :=
  match op with
  | .and | .or | .xor => [a, b]
  | _ => [old, a, b]

/-- the number for a signed or unsigned reading: unsigned, the sign is ignored -/
def readAs (signed : Bool) (v : Int) : Int := if signed then v else v.natAbs

/-- the answer to the check of a signature -/
def checked (ok : Bool) : Int64 := if ok then 0 else -1

/-- what a hash function of the host says -/
def hashOf (c : CryptoFns) : HashFn → Bytes → Except Err Bytes
  | .sha256 => c.sha256
  | .keccak256 => c.keccak256
  | .ripemd160 => c.ripemd160

/-- the price of a hash function, without the price of the bytes -/
def hashPrice (g : GasSchedule) : HashFn → Nat
  | .sha256 => (g.api .sha256).toNat
  | .keccak256 => (g.api .keccak256).toNat
  | .ripemd160 => (g.api .ripemd160).toNat

end Arwen.Spec
