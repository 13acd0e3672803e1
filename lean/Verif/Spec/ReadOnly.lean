import Verif.Spec.Storage
/-
What read-only execution must leave alone.
-/
namespace Arwen.Spec
variable {χ A : Type}

/-- Between states `s` and `t` the contents of the storage of all contracts stay the same, no log is written, and code is
reported for no further address, except for upgrades of contracts that the node knows to be upgradeable by their caller. -/
structure ReadOnlyKept (E : Env χ A) (s t : St χ A) : Prop where
  storage : ∀ a k, view E t a k = view E s a k
  logs : t.out.cur.logs = s.out.cur.logs
  code : ∀ a, a ∈ t.out.codeUpdates → a ∈ s.out.codeUpdates ∨ ∃ d, UpgradeAllowed E d ∧ d.address = a

/-- A node whose built-in functions, reverts and code cache leave contract storage alone, and whose built-in functions report
neither storage updates nor logs. -/
structure SilentNode (E : Env χ A) : Prop where
  builtin : ∀ w i a k, E.hook.storageData (E.hook.processBuiltIn w i).2 a k = E.hook.storageData w a k
  revert : ∀ w n a k, E.hook.storageData (E.hook.revert w n) a k = E.hook.storageData w a k
  saveCompiled : ∀ w h c a k, E.hook.storageData (E.hook.saveCompiled w h c) a k = E.hook.storageData w a k
  noUpdates : ∀ w i b, (E.hook.processBuiltIn w i).1 = .ok b → ∀ a k, pending b.out a k = none
  noLogs : ∀ w i b, (E.hook.processBuiltIn w i).1 = .ok b → b.out.logs = []

end Arwen.Spec
