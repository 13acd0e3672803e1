import Verif.Config.Schedule
import Verif.Config.Texts
import Verif.World.Scenario
/-
How a scenario gets its gas schedule: `arwenmandos/gasSchedules/gasScheduleLoad.go`, `arwenmandos/gasSchedules/gasSchedules.go` and
`arwenmandos/exec.go`. The library that reads TOML is not modelled: a text is given as the tree that the library makes of it.
-/
namespace Arwen.Mock
open Arwen.Config

/-- a value in a section of a tree; other values than integers do not matter -/
inductive TomlCost | int (v : Int64) | other
  deriving DecidableEq
/-- a value at the top of a tree -/
inductive TomlSection | table (t : List (String × TomlCost)) | other
  deriving DecidableEq
/-- `ToMap` of a tree: the order of the entries is that in which the loop over the map meets them -/
abbrev TomlTree := List (String × TomlSection)

/-- the inner loop of `LoadGasScheduleConfig`, `gasScheduleLoad.go` 23-25; `none` for the panic when a cost is not an integer -/
def loadCosts : List (String × TomlCost) → AMap String UInt64 → Option (AMap String UInt64)
  | [], m => some m
  | (k, .int v) :: l, m => loadCosts l (m.insert k v.toUInt64)
  | (_, .other) :: _, _ => none

/-- the outer loop of `LoadGasScheduleConfig`, `gasScheduleLoad.go` 20-26; `none` for the panic when a section is not a table -/
def loadSections : TomlTree → ScheduleMap → Option ScheduleMap
  | [], m => some m
  | (k, .table t) :: l, m =>
    match loadCosts t AMap.empty with
    | none => none
    | some c => loadSections l (m.insert k c)
  | (_, .other) :: _, _ => none

/-- `LoadGasScheduleConfig`, `gasScheduleLoad.go` 11-29, for a text that the library can read -/
def loadSchedule (t : TomlTree) : Option ScheduleMap := loadSections t AMap.empty

/-- the tree of a text that consists of tables of numbers -/
def treeOf (x : ScheduleText) : TomlTree :=
  x.map fun p => (p.1, .table (p.2.map fun q => (q.1, .int (Int64.ofNat q.2))))

/-- `GasValueForTests` and `AsyncCallbackGasLockForTests`, `config/gasSchedule.go` 10-12, in `MakeGasMapForTests`, 756-758 -/
def testSchedule : ScheduleMap := makeGasMap 1 100000

/-- `gasScheduleMapFromMandos`, `arwenmandos/exec.go` 74-89. There are no other kinds: the parser of scenarios makes none. -/
def scheduleFor : GasKind → Option ScheduleMap
  | .default => loadSchedule (treeOf scheduleV3)
  | .dummy => some testSchedule
  | .v1 => loadSchedule (treeOf scheduleV1)
  | .v2 => loadSchedule (treeOf scheduleV2)
  | .v3 => loadSchedule (treeOf scheduleV3)

/-- what an executor keeps of gas schedules: whether one was chosen, the costs of the virtual machine, and the schedule that the
built-in functions were made with (`arwenmandos/exec.go` 25-66) -/
structure ExecGas where
  loaded : Bool
  host : HostGas
  builtins : ScheduleMap

/-- an executor whose virtual machine and built-in functions are made with a schedule (`arwenmandos/exec.go` 41-66); the error is that
of the virtual machine -/
def execGasFrom (D : Decoder) (m : ScheduleMap) : Except String ExecGas :=
  match newHost D m with
  | .error e => .error e
  | .ok h => .ok { loaded := false, host := h, builtins := m }

/-- `NewArwenTestExecutor`, `arwenmandos/exec.go` 38-67 -/
def newExecGas (D : Decoder) : Except String ExecGas := execGasFrom D testSchedule

/-- `SetMandosGasSchedule`, `arwenmandos/exec.go` 94-105; `none` for a panic -/
def chooseSchedule (D : Decoder) (k : GasKind) (x : ExecGas) : Option ExecGas :=
  if x.loaded then some x
  else match scheduleFor k with
    | none => none
    | some m => some { x with loaded := true, host := gasScheduleChange D m x.host }

/-- the schedule of a scenario as the model of scenarios takes it (`Arwen.Mock.enterScenario`) -/
def loadKind (D : Decoder) (k : GasKind) : Option GasSchedule :=
  match scheduleFor k with
  | none => none
  | some m =>
    match createGasConfig D m with
    | .error _ => none
    | .ok c => some c.schedule

end Arwen.Mock
