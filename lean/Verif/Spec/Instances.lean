import Verif.Host.Top
/-
Specification for C72: the native instances (memory of the Wasmer library outside of Go) are destroyed exactly once and not used
after that.
-/
namespace Arwen.Spec
open Arwen
variable {χ A : Type}

/-- the instances in use: the running one and those of the callers that wait for it -/
def inUse (s : St χ A) : List Nat := (s.rt.instance_ :: s.rt.instanceStack).filterMap id

/-- the instance was made and is not destroyed -/
def usable (s : St χ A) (i : Nat) : Bool := decide (i < s.nextInst) && decide ((s.insts i).destroyed = 0)

/-- No instance in use is destroyed, no instance was destroyed twice, and none is lost: one that is not in use was destroyed. -/
def sound (s : St χ A) : Bool :=
  (inUse s).all (usable s) &&
  (List.range s.nextInst).all (fun i => decide ((s.insts i).destroyed ≤ 1) && ((inUse s).contains i || decide ((s.insts i).destroyed = 1)))

/-- every instance that was made was destroyed exactly once -/
def releasedOnce (s : St χ A) : Bool := (List.range s.nextInst).all (fun i => decide ((s.insts i).destroyed = 1))

/-- An API with checks around every function: a panic if the instances are not sound when a contract calls the function, or when
the function returns to the contract, or if it then returns to another instance. -/
def watchedApi (E : Env χ A) : A → Free χ A Int64 := fun a =>
  .ask fun s => if sound s then
    (E.api a).bind fun r => .ask fun t => if sound t && decide (t.rt.instance_ = s.rt.instance_) then .pure r else .panic
  else .panic

end Arwen.Spec
