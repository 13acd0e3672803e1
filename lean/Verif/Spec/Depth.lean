import Verif.Host.Top
/-
Specification for C22: instances that are alive, and histories of transactions.
-/
namespace Arwen.Spec
open Arwen
variable {χ A : Type}

/-- the number of contract instances that were created and not yet released -/
def aliveCount (s : St χ A) : Nat := ((List.range s.nextInst).filter (fun j => !(s.insts j).cleaned)).length

/-- transactions run one after the other on the same host, each with `n` levels of fuel: the results and the final state -/
def runAll (E : Env χ A) (n : Nat) : List Tx → St χ A → List RunResult × St χ A
  | [], s => ([], s)
  | tx :: rest, s => ((runTx E n tx s).1 :: (runAll E n rest (runTx E n tx s).2).1, (runAll E n rest (runTx E n tx s).2).2)

end Arwen.Spec
