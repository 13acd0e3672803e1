import Verif.Spec.Value
import Verif.Spec.World
import Verif.World.Executor
/-
Transactions of scenarios, as a test author sees them.
-/
namespace Arwen.Spec
open Arwen.Mock

/-- all the value there is in the world -/
def wealth (w : MockWorld) : Int := (w.accts.entries.map fun p => p.2.balance).sum

/-- what a transaction's gas costs -/
def gasPayment (tx : ScTx) : Int := tx.gasLimit.toNat * tx.gasPrice.toNat

/-- the transaction step ended with an error, or the transaction was executed and failed -/
def StepFailed : Option (Except StepErr VMOutput) → Prop
  | none => False
  | some (.error _) => True
  | some (.ok o) => o.returnCode ≠ .ok

/-- the sender's account after paying for the gas: the nonce is one higher, and the price of the gas is gone if it could be paid -/
def paidGas (tx : ScTx) (acc : WAcc) : WAcc :=
  { acc with nonce := acc.nonce + 1, balance := if acc.balance < gasPayment tx then acc.balance else acc.balance - gasPayment tx }

/-- nothing happened but that the sender, if there is one, paid for the gas -/
def OnlyPaidGas (tx : ScTx) (w v : MockWorld) : Prop :=
  ∀ a, v.account a = if tx.kind.hasSender = true ∧ a = tx.sender then (w.account a).map (paidGas tx) else w.account a

/-- the node's built-in functions leave the world alone -/
def StillBuiltins (L : Lib) : Prop := ∀ w i, (L.builtin w i).2 = w

/-- one world from another by storing values in accounts, as the node's built-in functions do -/
inductive Stores (w : MockWorld) : MockWorld → Prop
  | nothing : Stores w w
  | value (v : MockWorld) (a : Addr) (key value : Bytes) : Stores w v → Stores w (v.saveKeyValue a key value)

/-- the node's built-in functions do nothing to the world but store values -/
def StoringBuiltins (L : Lib) : Prop := ∀ w i, Stores w (L.builtin w i).2

/-- the node's built-in functions change no balances and neither make nor remove accounts -/
def BalancesKept (L : Lib) : Prop := ∀ w i a, ((L.builtin w i).2.account a).map WAcc.balance = (w.account a).map WAcc.balance

end Arwen.Spec
