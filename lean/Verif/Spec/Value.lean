import Verif.Spec.Storage
/-
Value, as a user sees it: the balance changes that an output reports, and the balances that contracts see.
-/
namespace Arwen.Spec
variable {χ A : Type}

/-- the balance change reported for an account -/
def change (o : VMOutput) (a : Addr) : Int := ((o.accounts.get? a).map OutAcc.balanceDelta).getD 0

/-- the sum of all reported balance changes -/
def totalChange (o : VMOutput) : Int := (o.accounts.entries.map fun p => p.2.balanceDelta).sum

/-- the value that comes with a transaction -/
def txValue : Tx → Int
  | .call i => i.vm.callValue
  | .create i => i.vm.callValue

/-- a transaction that does not ask for the deployment of a contract for which the node makes no address -/
def HasAddress (E : Env χ A) (tx : Tx) (s : St χ A) : Prop :=
  ∀ i, tx = .create i → ∃ a, (newAddress E i.vm.caller (hostInit E s)).1 = .ok a

/-- the node's built-in functions move value, they do not make or destroy it -/
def FairBuiltins (E : Env χ A) : Prop := ∀ w i b, (E.hook.processBuiltIn w i).1 = .ok b → totalChange b.out = 0

/-- Where the node may put a new contract no account exists during the transaction, and the node's built-in functions take
nothing from there. -/
structure NewStaysNew (E : Env χ A) (w0 : χ) : Prop where
  none : ∀ a, Deployable E w0 a → ∀ w, Reached E w0 w → ∀ ua, E.hook.userAccount w a ≠ .ok (some ua)
  builtin : ∀ w, Reached E w0 w → ∀ i b a acc, (E.hook.processBuiltIn w i).1 = .ok b → Deployable E w0 a →
    b.out.accounts.get? a = some acc → acc.balance = Option.none ∧ 0 ≤ acc.balanceDelta

/-- what an account is known to own, before the changes of this execution: as noted in the output, or else on the chain -/
def known (E : Env χ A) (s : St χ A) (a : Addr) : Option Int :=
  match (s.out.cur.accounts.get? a).bind OutAcc.balance with
  | some b => some b
  | none => match E.hook.userAccount s.world a with
    | .ok (some ua) => some ua.balance
    | _ => none

/-- the balance of an account that contracts see: what it is known to own, and all changes of this execution; nothing is seen of
an account that is not on the chain -/
def balance (E : Env χ A) (s : St χ A) (a : Addr) : Int :=
  match known E s a with
  | some b => b + change s.out.cur a
  | none => 0

/-- no account on the chain has a negative balance, and the node's built-in functions take nothing -/
structure Solvent (E : Env χ A) : Prop where
  chain : ∀ w a ua, E.hook.userAccount w a = .ok (some ua) → 0 ≤ ua.balance
  builtin : ∀ w i b a acc, (E.hook.processBuiltIn w i).1 = .ok b → b.out.accounts.get? a = some acc →
    acc.balance = none ∧ 0 ≤ acc.balanceDelta

end Arwen.Spec
