import Verif.Host.Calls
import Verif.Host.Top
/-
Which account the gas is charged to, as a user of the VM sees it in the outputs.
-/
namespace Arwen.Spec
variable {χ A : Type}

/-- the gas that an output reports as used by an account -/
def usedBy (o : VMOutput) (a : Addr) : UInt64 := ((o.accounts.get? a).map (·.gasUsed)).getD 0

/-- the gas charged to an account so far by the calls that the running contract has made -/
def chargedTo (s : St χ A) (a : Addr) : UInt64 := (s.met.cur.gasUsedByAccounts.get? a).getD 0

/-- What one successful nested call charges to each account, when `n` levels of calls are left. -/
inductive Charge (E : Env χ A) : Nat → (Addr → UInt64) → Prop
  /-- a call on the context of the called contract: what its output reports -/
  | dest (n : Nat) (i : CallInput) (s t : St χ A) (r : DestResult) : (execN E n).dest i s = (.ok r, t) → r.output.returnCode = .ok →
      Charge E n (usedBy r.output)
  /-- a call on the caller's context: what is on record when the called contract ends -/
  | same (n : Nat) (i : CallInput) (s u t : St χ A) : (execN E (n + 1)).same i s = (.ok none, t) →
      bodySame E (execN E n) (enterSameInput E i s) (enterSameState E i s) = (.ok none, u) →
      Charge E (n + 1) (chargedTo (getVMOutput E u).2)

/-- the sum of what some calls charge to an account -/
def totalCharge (cs : List (Addr → UInt64)) (a : Addr) : UInt64 := (cs.map (· a)).foldr (· + ·) 0

/-- the address whose code a transaction runs: the recipient, or the address that the node makes for a new contract -/
def RunsAt (E : Env χ A) (s : St χ A) (tx : Tx) (a : Addr) : Prop :=
  match tx with
  | .call i => a = i.recipient
  | .create i => (newAddress E i.vm.caller (hostInit E s)).1 = .ok a

end Arwen.Spec
