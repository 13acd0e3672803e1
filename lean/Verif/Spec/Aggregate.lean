import Verif.Spec.Executor
import Verif.Spec.Nonce
/-
What it means that the reported output accounts, applied to the world, give what contracts saw at the end (C49).
-/
namespace Arwen.Spec
open Arwen Arwen.Mock
variable {A : Type}

/-- what of an account the node's built-in functions must leave alone -/
def coreOf (acc : WAcc) : Int × UInt64 × Bytes := (acc.balance, acc.nonce, acc.code)

/-- The node's built-in functions change no balances, nonces or code in the world, and neither make nor remove accounts; they may
change storage, where tokens are kept. -/
structure SteadyBuiltins (L : Lib) : Prop where
  accounts : ∀ w i a, ((L.builtin w i).2.account a).map coreOf = (w.account a).map coreOf
  err : ∀ w i, (L.builtin w i).2.err = w.err

/-- The outputs of the node's built-in functions have changes of balances and storage, but no balances, nonces or code. -/
def ChangesOnly (L : Lib) : Prop := ∀ w i b a acc, (L.builtin w i).1 = .ok b → b.out.accounts.get? a = some acc →
  acc.balance = none ∧ acc.nonce = 0 ∧ acc.code = []

/-- `u` is the state in which the code run by the transaction ended, and `o` is the output that the host makes there. -/
structure EndsIn (E : Env MockWorld A) (n : Nat) (tx : Tx) (s u : St MockWorld A) (o : VMOutput) : Prop where
  run : Run (StepT E (execN E n)) (txStart E tx s) u
  output : o = (getVMOutput E u).1
  world : (runTx E n tx s).2.world = u.world

/-- the account `acc` of a world is what contracts see of the address `a` in state `u` -/
structure SeenAs (E : Env MockWorld A) (u : St MockWorld A) (a : Addr) (acc : WAcc) : Prop where
  balance : (getBalance E a u).1 = acc.balance
  storage : ∀ k, view E u a k = acc.storageValue k
  /-- asking for the code of an account without code is an error -/
  code : ∀ c, (getCode E a u).1 = .ok c ↔ c = acc.code ∧ c ≠ []

end Arwen.Spec
