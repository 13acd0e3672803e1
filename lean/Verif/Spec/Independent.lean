import Verif.Spec.Depth
/-
Specification for C46: a host that has just been started, and one that has finished its transactions.
-/
namespace Arwen.Spec
open Arwen
variable {χ A : Type}

/-- a virtual machine that was just started, over a node's state, with a gas schedule -/
def freshHost (w : χ) (g : GasSchedule) : St χ A where
  world := w
  flags := {}
  big := {}
  sto := {}
  out := {}
  met := { sched := g }
  rt := {}
  bcStack := []
  insts := fun _ => .blank
  nextInst := 0

/-- what a user sees of a transaction: its result (an output, or an error after a panic) and the node's state afterwards -/
def seen (r : RunResult × St χ A) : RunResult × χ := (r.1, r.2.world)

/-- no transaction of the history ended in a panic that the host had to catch -/
def NoPanic (rs : List RunResult) : Prop := ∀ r ∈ rs, r ≠ some none

end Arwen.Spec
