import Verif.Host.Rel
import Verif.Spec.Storage
import Verif.Spec.Deploy
/-
What it means that nonces only grow, by one for every deployment (C19).
-/
namespace Arwen.Spec
open Arwen
variable {χ A : Type}

/-- the nonce that an output notes for an account; 0 if it notes none -/
def notedNonce (o : VMOutput) (a : Addr) : UInt64 :=
  match o.accounts.get? a with
  | some acc => acc.nonce
  | none => 0

/-- the nonce of an account whose nonce on the chain is `c` -/
def nonceNow (c : UInt64) (o : VMOutput) (a : Addr) : UInt64 := if notedNonce o a = 0 then c else notedNonce o a

/-- `Deployments E w0 a c o k o'`: the output went from `o` to `o'`, and on the way `k` deployments by `a` ended successfully, each
marked by `IncreaseNonce(a)`; nothing else touched the nonce of `a`. What nested calls did counts when they succeeded; their
output is then merged into that of the caller. The output of failed nested calls is dropped, which is no change at all. -/
inductive Deployments (E : Env χ A) (w0 : χ) (a : Addr) (c : UInt64) : VMOutput → Nat → VMOutput → Prop
  /-- a change that does not concern the nonce of `a` -/
  | keep (o o' : VMOutput) : nonceNow c o' a = nonceNow c o a → (notedNonce o a ≠ 0 → notedNonce o' a ≠ 0) → Deployments E w0 a c o 0 o'
  /-- `a` deployed a contract -/
  | deployed (s : St χ A) (o' : VMOutput) : Reached E w0 s.world → s.flags.v3 = true →
      o'.accounts.get? a = (increaseNonce E a s).out.cur.accounts.get? a → Deployments E w0 a c s.out.cur 1 o'
  | andThen (o o1 o2 : VMOutput) (k l : Nat) : Deployments E w0 a c o k o1 → Deployments E w0 a c o1 l o2 → Deployments E w0 a c o (k + l) o2
  /-- a nested call that succeeded -/
  | nested (o o' : VMOutput) (k : Nat) : Deployments E w0 a c o.censored k o' → Deployments E w0 a c o k (mergeOut o o')

/-- The account `a` is on the chain with nonce `c` during the whole transaction: the node's own functions do not change the nonce
nor report one. -/
structure KnownNonce (E : Env χ A) (w0 : χ) (a : Addr) (c : UInt64) : Prop where
  onChain : ∀ w, Reached E w0 w → ∃ ua, E.hook.userAccount w a = .ok (some ua) ∧ ua.nonce = c
  builtin : ∀ w, Reached E w0 w → ∀ i b acc, (E.hook.processBuiltIn w i).1 = .ok b → b.out.accounts.get? a = some acc → acc.nonce = 0

end Arwen.Spec
