import Verif.World.Convert
/-
Whole scenarios: `arwenmandos/execScenario.go`, `arwenmandos/exec.go` and `mandos-go/controller/scenarioDir.go`. Reading and parsing
files is left out: an external step holds the scenario that its file contains.
-/
namespace Arwen.Mock

/-- `GasSchedule`, `mandos-go/json/model/gasSchedule.go` -/
inductive GasKind | default | dummy | v1 | v2 | v3
  deriving DecidableEq, Repr

/-- `SetStateStep`, `mandos-go/json/model/structScenario.go` 40-47. The random seed of blocks has been cut or filled up to 48 bytes
(`convertBlockInfo`, `arwenmandos/util.go` 128-147). -/
structure SetState where
  accounts : List AccountInit := []
  previous : Option BlockInfo := none
  current : Option BlockInfo := none
  blockhashes : List Bytes := []
  addressMocks : List AddressMock := []
  deriving DecidableEq, Repr, Inhabited

/-- `TxStep`, `mandos-go/json/model/structScenario.go` 61-66; without an expected result nothing is checked -/
structure TxStep where
  id : Bytes := []
  tx : ScTx
  expect : Option TxExpect := none
  deriving DecidableEq, Repr

/-- the steps of a scenario, `mandos-go/json/model/structScenario.go` 13-66. An external step comes with the flag, the gas schedule and the steps of the
scenario it refers to, or with nothing if that cannot be read. -/
inductive Step
  | external (checkGas : Bool) (gas : GasKind) (steps : List Step)
  | unreadable
  | setState (x : SetState)
  | checkState (c : CheckAccounts)
  | tx (t : TxStep)
  | dump

/-- `Scenario`, `mandos-go/json/model/structScenario.go` 4-10 -/
structure Scenario where
  checkGas : Bool := true
  gas : GasKind := .default
  steps : List Step

/-- why a scenario failed -/
inductive ScFail | schedule | file | setState | checkState | tx (e : StepErr) | result
  deriving DecidableEq, Repr

/-- the outcome of steps and scenarios; `unknown` means that the model's fuel for nested calls was exhausted -/
inductive Verdict | passed | failed (f : ScFail) | unknown
  deriving DecidableEq, Repr

/-- `ArwenTestExecutor`, `arwenmandos/exec.go` 25-32: the virtual machine with its world, and two settings -/
structure Runner (A : Type) where
  st : St MockWorld A
  checkGas : Bool := true
  loaded : Bool := false

/-- `IsSmartContractAddress`, `mock/world/worldAccountValidate.go` 14-17 (which panics on addresses shorter than eight bytes) -/
def contractForm (a : Addr) : Bool := decide (a.take 8 = List.replicate 8 0)

/-- `ExecuteSetStateStep`, `arwenmandos/execScenario.go` 79-115. Nothing is undone on errors. -/
def setWorld (C : TokenCodec) (x : SetState) (w : MockWorld) : Bool × MockWorld :=
  match setAccounts w (x.accounts.map (convertAccount C)) with
  | (false, w) => (false, w)
  | (true, w) =>
    let w := { w with previous := x.previous, current := x.current, blockhashes := x.blockhashes }
    if x.addressMocks.all (fun m => contractForm m.address) then (true, { w with addressMocks := w.addressMocks ++ x.addressMocks })
    else (false, w)

section
variable {A : Type} (env : GasSchedule → Env MockWorld A) (L : Lib) (n : Nat) (C : TokenCodec) (load : GasKind → Option GasSchedule)

/-- the start of `ExecuteScenario`, `arwenmandos/execScenario.go` 17-24, with `SetMandosGasSchedule`, `arwenmandos/exec.go` 91-105. Here `load`
reads and decodes a schedule; the environment depends on the schedule because the prices of instructions do. -/
def enterScenario (checkGas : Bool) (gas : GasKind) (x : Runner A) : Bool × Runner A :=
  let x := { x with checkGas := checkGas }
  if x.loaded then (true, x)
  else match load gas with
    | none => (false, x)
    | some g => (true, { x with loaded := true, st := { x.st with met := { x.st.met with sched := g } } })

/-- `ExecuteTxStep`, `arwenmandos/execScenario.go` 118-139 -/
def runTxStep (t : TxStep) (x : Runner A) : Verdict × Runner A :=
  let r := executeTx (env x.st.met.sched) L n t.id t.tx x.st
  let x := { x with st := r.2 }
  match r.1 with
  | none => (.unknown, x)
  | some (.error e) => (.failed (.tx e), x)
  | some (.ok o) =>
    match t.expect with
    | none => (.passed, x)
    | some c => if checkResult x.checkGas c o then (.passed, x) else (.failed .result, x)

mutual
/-- `ExecuteStep` and `ExecuteExternalStep`, `arwenmandos/execScenario.go` 38-77; an external scenario is run by the same executor -/
def runStep : Step → Runner A → Verdict × Runner A
  | .external checkGas gas steps, x =>
    match enterScenario load checkGas gas x with
    | (false, x) => (.failed .schedule, x)
    | (true, x) => runSteps steps x
  | .unreadable, x => (.failed .file, x)
  | .setState s, x =>
    match setWorld C s x.st.world with
    | (ok, w) => (if ok then .passed else .failed .setState, { x with st := { x.st with world := w } })
  | .checkState c, x => (if checkState C c x.st.world then .passed else .failed .checkState, x)
  | .tx t, x => runTxStep env L n t x
  | .dump, x => (.passed, x)
/-- the loop of `ExecuteScenario`, `arwenmandos/execScenario.go` 26-34: stops at the first error -/
def runSteps : List Step → Runner A → Verdict × Runner A
  | [], x => (.passed, x)
  | s :: rest, x =>
    match runStep s x with
    | (.passed, x) => runSteps rest x
    | (.failed f, x) => (.failed f, x)
    | (.unknown, x) => (.unknown, x)
end

/-- `ExecuteScenario`, `arwenmandos/execScenario.go` 17-36 -/
def runScenario (sc : Scenario) (x : Runner A) : Verdict × Runner A :=
  match enterScenario load sc.checkGas sc.gas x with
  | (false, x) => (.failed .schedule, x)
  | (true, x) => runSteps env L n C load sc.steps x

/-- `Reset`, `arwenmandos/execScenario.go` 12-14 -/
def Runner.reset (x : Runner A) : Runner A := { x with st := { x.st with world := x.st.world.clear } }

/-- the scenarios of a directory, `RunAllJSONScenariosInDirectory`, `mandos-go/controller/scenarioDir.go` 14-54: each is run by the same
executor after a reset; the verdicts in order -/
def runScenarios : List Scenario → Runner A → List Verdict × Runner A
  | [], x => ([], x)
  | sc :: rest, x =>
    let r := runScenario env L n C load sc x.reset
    let q := runScenarios rest r.2
    (r.1 :: q.1, q.2)

end
end Arwen.Mock
