import Verif.Host.TopSim
/-
Outcomes of transactions, as a user sees them.
-/
namespace Arwen.Spec
variable {χ A : Type}

/-- An output without effects: no gas is left or refunded, nothing is returned, logged or changed. -/
structure NoEffects (o : VMOutput) : Prop where
  gas : o.gasRemaining = 0
  refund : o.gasRefund = 0
  data : o.returnData = []
  logs : o.logs = []
  accounts : o.accounts = AMap.empty

/-- the names of constructors: `init` and `solidity.ctor` -/
def IsConstructor (f : Bytes) : Prop := f = "init".toUTF8.data.toList ∨ f = "solidity.ctor".toUTF8.data.toList
/-- the name `callBack` -/
def callBack : Bytes := "callBack".toUTF8.data.toList

/-- the price of fetching and preparing code, with the rules in force -/
def startCost (E : Env χ A) (s : St χ A) (code : Bytes) : Nat :=
  if E.hook.currentEpoch s.world ≥ E.aotEpoch then s.met.sched.getCode.toNat + code.length * s.met.sched.aotPreparePerByte.toNat
  else code.length * s.met.sched.compilePerByte.toNat

/-- the gas of a call covers the price of looking for the code -/
def CanFetch (E : Env χ A) (s : St χ A) (i : CallInput) : Prop :=
  E.hook.currentEpoch s.world ≥ E.v2Epoch → s.met.sched.getCode ≤ i.vm.gasProvided

/-- The called contract exists with this code and compiles to module `m`, the gas covers the price of preparing it; the
host is cold: nothing compiled or warm is kept for it, and no instance is running. -/
structure Startable (E : Env χ A) (s : St χ A) (i : CallInput) (code : Bytes) : Prop where
  call : i.function ≠ "upgradeContract".toUTF8.data.toList
  fetch : CanFetch E s i
  short : code.length < 2 ^ 64
  deployed : ∃ ua, E.hook.userAccount s.world i.recipient = .ok (some ua) ∧ ua.code = code ∧ code ≠ [] ∧
    E.hook.compiledCode s.world ua.codeHash = none
  gas : startCost E s code ≤ i.vm.gasProvided.toNat
  cold : E.useWarm = false
  hash : ∃ h, E.crypto.sha256 code = .ok h
  free : s.rt.instanceStack.length < E.maxInstances

/-- the outcome of a transaction is this output -/
def Outputs (E : Env χ A) (n : Nat) (tx : Tx) (s : St χ A) (o : VMOutput) : Prop := (runTx E n tx s).1 = some (some o)

end Arwen.Spec
