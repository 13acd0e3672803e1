import Verif.Ipc.Parts
/-
Model of `ipc/nodepart/arwenDriver.go`: the driver starts the Arwen process, talks with it, kills it when a dialogue fails and
starts it again for the next request. Processes may die at any time and may fail to start; both are parameters. The operations
exclude each other (`operationsMutex`, 50), so a history is a sequence of operations; only `Close` does not take the mutex, and is
modelled as if it did. Logs are not modelled.
-/
namespace Arwen.Ipc
variable {W H : Type}

/-- The Arwen process, as the driver holds it in `command` (35). -/
inductive Proc (H : Type) where
  /-- the process runs; its messenger and the state of its virtual machine -/
  | running (arwen : Messenger) (h : H)
  /-- the process runs, or is about to end, but has not got its arguments; the driver's `part` is not connected with it -/
  | orphan
  /-- the process has ended by itself and nobody has waited for it: a zombie, which still takes signals -/
  | crashed
  /-- the process was killed and waited for (362-374) -/
  | closed
  /-- `command` has no process, because it could not be started (104-117) -/
  | missing

/-- `ArwenDriver` (`arwenDriver.go` 22-51), with the state of the node. `gas` is the schedule in `arwenArguments`, `node` the
messenger of `part`. -/
structure Driver (W H : Type) where
  gas : GasTable
  proc : Proc H
  node : Messenger := {}
  world : W
  /-- `counterDeploy` -/
  deploys : UInt64 := 0
  /-- `counterCall` -/
  calls : UInt64 := 0

/-- how an attempt to start the process goes (77-143) -/
inductive Start
  | ok
  /-- the pipes or the path of the executable fail, before `exec.Command` (80-93) -/
  | early
  /-- `StdoutPipe`, `StderrPipe` or `Start` fail (104-117) -/
  | noProcess
  /-- `SendArwenArguments` fails (119-122) -/
  | noArguments
  /-- the loop for the logs fails (137-140) -/
  | noLogs
  deriving DecidableEq, Repr, Inhabited

/-- `startArwen` (77-143): whether it succeeds. `boot` is the virtual machine that the process makes from the arguments
(`cmd/arwen/main.go` 32-95, `arwenpart/part.go` 25-58). `ClearCompiledCodes` (124) is asked of the hook directly. -/
def startArwen (N : Node W) (boot : GasTable → H) (o : Start) (d : Driver W H) : Bool × Driver W H :=
  let fresh : Driver W H :=
    { d with proc := .running {} (boot d.gas), node := {}, world := (N.hook .clearCompiledCodes () d.world).2 }
  match o with
  | .ok => (true, fresh)
  | .early => (false, d)
  | .noProcess => (false, { d with proc := .missing })
  | .noArguments => (false, { d with proc := .orphan })
  | .noLogs => (false, fresh)

/-- `RestartArwenIfNecessary` and `IsClosed` (193-213): `none` if the node panics, because `command.Process` is nil. A signal to a
zombie succeeds, so the driver takes a process that ended by itself for a running one. -/
def restartIfNecessary (N : Node W) (boot : GasTable → H) (o : Start) (d : Driver W H) : Option (Bool × Driver W H) :=
  match d.proc with
  | .missing => none
  | .closed => some (startArwen N boot o d)
  | _ => some (true, d)

/-- `Close` and `stopArwen` (350-374); `none` if the node panics. -/
def closeArwen (d : Driver W H) : Option (Driver W H) :=
  match d.proc with
  | .missing => none
  | _ => some { d with proc := .closed }

/-- A run of the virtual machine in a process that dies after some number of questions, if any is given. -/
def runIpcUntil {R : Type} (N : Node W) : IProg R → Option Nat → Sys W → Exit R × Sys W
  | .ret r, c, s => if c = some 0 then (.failed .arwenGone, s) else (.done r, s)
  | .ask f a k, c, s =>
    if c = some 0 then (.failed .arwenGone, s)
    else
      match askNode N f a s with
      | (.done ans, s) => runIpcUntil N (k ans) (c.map (· - 1)) s
      | (.ended m, s) => (.ended m, s)
      | (.failed e, s) => (.failed e, s)

/-- `StartLoop` of the node with one round of the Arwen process, as `startLoop`, for a process that may die meanwhile. -/
def startLoopUntil (N : Node W) (vm : Machine H) (crash : Option Nat) (request : Msg) (s : Sys W) (h : H) :
    Except LoopErr Msg × Sys W × H :=
  let (node, m) := s.node.send request
  let s := { s with node := node, remaining := N.maxLoopTime, received := 0 }
  match s.arwen.receive m.arrived with
  | none => (.error .arwenGone, { s with node := s.node.reset }, h)
  | some arwen =>
    let s := { s with arwen := arwen }
    match arwenReply N.ord vm m.arrived h with
    | none => (.error .arwenGone, { s with node := s.node.reset }, h)
    | some p =>
      match runIpcUntil N p crash s with
      | (.failed e, s) => (.error e, { s with node := s.node.reset }, h)
      | (.ended m, s) => (.ok m, { s with node := s.node.reset }, h)
      | (.done (resp, h), s) =>
        let (arwen, resp) := s.arwen.send resp
        let s := { s with arwen := arwen.reset }
        match nodeReceive N resp.arrived s with
        | .error e => (.error e, { s with node := s.node.reset }, h)
        | .ok s =>
          (if isHookCall resp.arrived.kind = false ∧ endsLoop resp.arrived.kind = true then .ok resp.arrived else .error .badMessage,
            { s with node := s.node.reset }, h)

/-- `driver.part.StartLoop(request)`. Without a living process nobody answers; the node holds both ends of its pipes, so it waits
until its time is over (with `MaxLoopTime` 0 it would wait for ever). -/
def converse (N : Node W) (vm : Machine H) (crash : Option Nat) (request : Msg) (d : Driver W H) :
    Except LoopErr Msg × Driver W H :=
  match d.proc with
  | .running arwen h =>
    let r := startLoopUntil N vm crash request { node := d.node, arwen := arwen, world := d.world } h
    (r.1, { d with
      node := r.2.1.node, world := r.2.1.world
      proc := match r.1 with | .error .arwenGone => .crashed | _ => .running r.2.1.arwen r.2.2 })
  | _ => (.error .arwenGone, { d with node := {} })

/-- the operations of the driver -/
inductive Op
  | version
  | gas (schedule : GasTable)
  | create (i : CreateInput)
  | call (i : CallInput)
  | wait (ms : UInt32)
  | close

/-- what the driver returns -/
inductive Returned where
  /-- output or error of a contract, or a critical error -/
  | ran (r : Driven)
  /-- `GetVersion`; empty if it fails -/
  | version (v : Bytes)
  /-- `GasScheduleChange` returns nothing; the error of `Close` (the process was closed before) is not modelled -/
  | nothing
  /-- `DiagnoseWait`: its error, if any -/
  | waited (e : Option Bytes)
  /-- a critical error of `DiagnoseWait`, or of a restart -/
  | critical
  /-- the node panics -/
  | panic

/-- What goes wrong around an operation: the process dies before it; a restart goes wrong; the process dies during it. -/
structure Faults where
  dies : Bool := false
  start : Start := .ok
  crash : Option Nat := none

/-- the request of an operation -/
def Op.request : Op → Msg
  | .version => { kind := .versionRequest, body := .versionRequest }
  | .gas g => { kind := .gasScheduleChangeRequest, body := .gasRequest g }
  | .create i => { kind := .contractDeployRequest, body := .deployRequest i }
  | .call i => { kind := .contractCallRequest, body := .callRequest i }
  | .wait ms => { kind := .diagnoseWaitRequest, body := .waitRequest ms }
  | .close => undefinedMsg

/-- what an operation does before it looks at the process: `GasScheduleChange` stores the schedule (246), the others count (273, 303) -/
def Op.prepare (op : Op) (d : Driver W H) : Driver W H :=
  match op with
  | .gas g => { d with gas := g }
  | .create _ => { d with deploys := d.deploys + 1 }
  | .call _ => { d with calls := d.calls + 1 }
  | _ => d

/-- what an operation returns when the process cannot be started or the dialogue fails -/
def Op.failed (e : LoopErr) : Op → Returned
  | .version => .version []
  | .gas _ | .close => .nothing
  | .create _ | .call _ => .ran (.critical e)
  | .wait _ => .critical

/-- what an operation makes of a response; `true` if it then closes the process -/
def Op.reads (N : Node W) (m : Msg) : Op → Returned × Bool
  | .version => match m.body with | .versionResponse v => (.version v, false) | _ => (.panic, false)
  | .gas _ => (.nothing, (getError N.errorf m.error).isSome)
  | .create _ | .call _ =>
    match driverReads N (.ok m) with
    | .critical .nodePanic => (.panic, false)
    | r => (.ran r, false)
  | .wait _ => (.waited (getError N.errorf m.error), false)
  | .close => (.nothing, false)

/-- the process may die before an operation -/
def Driver.afterIdle (d : Driver W H) (dies : Bool) : Driver W H :=
  match dies, d.proc with
  | true, .running _ _ => { d with proc := .crashed }
  | _, _ => d

/-- What an operation does after the restart. -/
def Driver.goOn (N : Node W) (vm : Machine H) (c : Option Nat) (op : Op) (d : Driver W H) : Returned × Driver W H :=
  match converse N vm c op.request d with
  | (.error .nodePanic, d) => (.panic, d)
  | (.error e, d) =>
    match closeArwen d with
    | none => (.panic, d)
    | some d => (op.failed e, d)
  | (.ok m, d) =>
    match op.reads N m with
    | (r, false) => (r, d)
    | (r, true) =>
      match closeArwen d with
      | none => (.panic, d)
      | some d => (r, d)

/-- One operation of the driver (215-360). -/
def Driver.step (N : Node W) (vm : Machine H) (boot : GasTable → H) (f : Faults) (op : Op) (d : Driver W H) :
    Returned × Driver W H :=
  let d := d.afterIdle f.dies
  match op with
  | .close =>
    match closeArwen d with
    | none => (.panic, d)
    | some d => (.nothing, d)
  | op =>
    let d := op.prepare d
    match restartIfNecessary N boot f.start d with
    | none => (.panic, d)
    | some (false, d) => (op.failed .arwenGone, d)
    | some (true, d) => d.goOn N vm f.crash op

/-- A history of operations. After a panic of the node there is none. -/
def Driver.history (N : Node W) (vm : Machine H) (boot : GasTable → H) : List (Faults × Op) → Driver W H → List Returned × Driver W H
  | [], d => ([], d)
  | (f, op) :: rest, d =>
    match d.step N vm boot f op with
    | (.panic, d) => ([.panic], d)
    | (r, d) => let q := d.history N vm boot rest; (r :: q.1, q.2)

/-- `NewArwenDriver` (54-75), if the process starts. -/
def newDriver (N : Node W) (boot : GasTable → H) (gas : GasTable) (w : W) : Driver W H :=
  (startArwen N boot .ok { gas := gas, proc := .closed, world := w }).2

end Arwen.Ipc
