import Verif.Host.Top
/-
Gas of transactions, as a user sees it. All amounts are natural numbers.
-/
namespace Arwen.Spec
variable {χ A : Type}

/-- the gas that comes with an input: for a callback also the gas locked for it earlier -/
def inputGas (i : VMInput) : Nat :=
  if i.callType = .asynchronousCallBack then i.gasProvided.toNat + i.gasLocked.toNat else i.gasProvided.toNat

/-- the gas that comes with a transaction -/
def txGas : Tx → Nat
  | .call i => inputGas i.vm
  | .create i => inputGas i.vm

/-- the gas that leaves with the transfers reported for an account -/
def forwardedGas (a : OutAcc) : Nat := (a.transfers.map fun t => t.gasLimit.toNat + t.gasLocked.toNat).sum

/-- the gas reported as used by the accounts, or leaving with transfers -/
def spentGas (o : VMOutput) : Nat := (o.accounts.entries.map fun p => p.2.gasUsed.toNat + forwardedGas p.2).sum

/-- the rules called V2 are in force -/
def RulesV2 (E : Env χ A) (s : St χ A) : Prop := E.v2Epoch ≤ E.hook.currentEpoch s.world

end Arwen.Spec
