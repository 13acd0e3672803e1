import Verif.Ipc.Driver
import Verif.World.Debug
/-
Model of how the Arwen process gets its settings and starts: `ipc/common/arguments.go`, `cmd/arwen/main.go`, `NewArwenPart`
(`ipc/arwenpart/part.go`) and the first steps of `NewArwenVM` (`arwen/host/arwen.go`). The settings are sent as JSON
(`encoding/json` of Go, external): numbers, flags and byte slices are read as they were written, texts as in `World/Debug.lean`.
-/
namespace Arwen.Ipc
open Arwen.Debug
variable {W H : Type}

/-- what `json.Marshal` makes of a container of built-in functions: an error, `null`, or any other value. The container of the node
(external) has no exported fields and is written as `{}`. -/
inductive Written
  | error | null | value
  deriving DecidableEq, Repr, Inhabited

/-- `ArwenArguments` (`arguments.go` 11-15) with `VMHostParameters` (`arwen/common.go` 112-124). Of the container of built-in
functions only how it is written is kept; `none` is nil. -/
structure Settings where
  vmType : Bytes := []
  blockGasLimit : UInt64 := 0
  gas : AMap Bytes (AMap Bytes UInt64) := AMap.empty
  builtins : Option Written := none
  protectedPrefix : Bytes := []
  v2Epoch : UInt32 := 0
  aotEpoch : UInt32 := 0
  dynLockEpoch : UInt32 := 0
  v3Epoch : UInt32 := 0
  esdtEpoch : UInt32 := 0
  warm : Bool := false
  /-- `LogsMarshalizer` -/
  logs : UInt32 := 0
  /-- `MessagesMarshalizer` -/
  messages : UInt32 := 0

/-- `SendArwenArguments` (`arguments.go` 18-23): what is written, as it will be read, or `none` if it cannot be written. The nil
container is written as `null`. -/
def sendSettings (a : Settings) : Option Settings :=
  match a.builtins with
  | some .error => none
  | none | some .null => some { a with builtins := some .null, gas := rereadMap (rereadMap id) a.gas }
  | some .value => some { a with builtins := some .value, gas := rereadMap (rereadMap id) a.gas }

/-- `GetArwenArguments` (`arguments.go` 26-35). The field of the container has an interface type with methods: `json.Unmarshal`
(external) leaves it nil for `null` and reports an error for everything else. -/
def getSettings (sent : Settings) : Option Settings :=
  if sent.builtins = some .null then some { sent with builtins := none } else none

/-- how far the process gets -/
inductive Launched
  /-- the process ends with `ErrCodeInit` (`main.go` 58-61, 66-74) -/
  | exits
  /-- the process panics while it makes the host -/
  | panics
  /-- the process has made its host from these settings and waits for requests -/
  | runs (a : Settings)

/-- `doMain` (`cmd/arwen/main.go` 32-95) from the message that it finds in the pipe; `logs`: whether the part for the logs works.
`NewArwenVM` hands the container to `NewReservedFunctions` (`arwen/contexts/reservedFunctions.go` 14-19, by
`NewRuntimeContext`, `runtime.go` 54-67), which asks it for its keys, before anything else can fail; asking nil panics. Other errors
of `NewArwenVM` are left out. -/
def arwenMain (logs : Bool) (sent : Settings) : Launched :=
  match getSettings sent with
  | none => .exits
  | some a =>
    if logs = false then .exits
    else match a.builtins with
      | none => .panics
      | some _ => .runs a

/-- What goes wrong around an operation of the driver if a process that is started for it, or was started before, gets only so far:
a process that does not run answers no request (`crash := some 0`). -/
def Launched.faults (l : Launched) (f : Faults) : Faults :=
  match l with
  | .runs _ => f
  | _ => { f with crash := some 0 }

end Arwen.Ipc
