import Verif.Spec.Gas
/-
Payment for code deployed by contracts, as a user sees it. All amounts are natural numbers.
-/
namespace Arwen.Spec
variable {χ A : Type}

/-- the price of compiling code -/
def compilePrice (sched : GasSchedule) (code : Bytes) : Nat := code.length * sched.compilePerByte.toNat

/-- the price of an upgrade by a call: creating a contract and compiling the code -/
def upgradePrice (sched : GasSchedule) (code : Bytes) : Nat := (sched.api .createContract).toNat + compilePrice sched code

end Arwen.Spec
