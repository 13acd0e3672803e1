import Verif.Ipc.Driver
import Verif.Spec.Ipc
/-
What users of the driver see of the Arwen process.
-/
namespace Arwen.Spec
open Arwen.Ipc
variable {W H : Type}

/-- the last schedule given to `GasScheduleChange`, or the one at the start -/
def lastSchedule (start : GasTable) (ops : List Op) : GasTable :=
  ops.foldl (fun g op => match op with | .gas g' => g' | _ => g) start

/-- the number of calls and of deployments among some operations -/
def callsIn (ops : List Op) : Nat := ops.countP fun op => match op with | .call _ => true | _ => false
def deploysIn (ops : List Op) : Nat := ops.countP fun op => match op with | .create _ => true | _ => false

/-- all results that a run can have satisfy `P` -/
def Ends {R : Type} (P : R → Prop) : IProg R → Prop
  | .ret r => P r
  | .ask _ _ k => ∀ x, Ends P (k x)

/-- A virtual machine uses the schedule that it was made with, and goes on using it when it runs contracts. -/
structure KeepsSchedule (schedule : H → GasTable) (vm : Machine H) (boot : GasTable → H) : Prop where
  boot : ∀ g, schedule (boot g) = g
  call : ∀ i h, Ends (fun r => schedule r.2 = schedule h) (vm.call i h)
  create : ∀ i h, Ends (fun r => schedule r.2 = schedule h) (vm.create i h)

/-- The virtual machine and the state of the node that the next request meets: those of the running process; or, if the process is
closed, a fresh virtual machine with the current schedule, after the node has dropped all compiled code. -/
inductive Serves (N : Node W) (boot : GasTable → H) (d : Driver W H) : H → W → Prop
  | alive (a : Messenger) (h : H) : d.proc = .running a h → Serves N boot d h d.world
  | fresh : d.proc = .closed → Serves N boot d (boot d.gas) (N.hook .clearCompiledCodes () d.world).2

/-- both messengers are ready for a new request -/
def InStep (d : Driver W H) : Prop := d.node = {} ∧ ∀ a h, d.proc = .running a h → a = {}

/-- the state of a driver after a history without a panic of the node -/
def Reaches (N : Node W) (vm : Machine H) (boot : GasTable → H) (g : GasTable) (w : W) (hist : List (Faults × Op))
    (d : Driver W H) : Prop :=
  ∃ rs, (newDriver N boot g w).history N vm boot hist = (rs, d) ∧ ∀ r ∈ rs, r ≠ .panic

/-- runs whose results and errors can be sent over the pipe, see C38 -/
structure Sendable (N : Node W) (p : IProg ((Option RawOutput × Option Bytes) × H)) : Prop where
  asks : Asks Supported p
  keys : ∀ w o, (runDirect N.hook p w).1.1.1 = some o → KeysAgree o
  errors : ∀ w text, (runDirect N.hook p w).1.1.2 = some text → text ≠ [] ∧ N.errorf text = text

/-- the run that an operation asks for -/
def runOf (vm : Machine H) : Op → H → Option (IProg ((Option RawOutput × Option Bytes) × H))
  | .call i, h => some (vm.call i h)
  | .create i, h => some (vm.create i h)
  | _, _ => none

end Arwen.Spec
