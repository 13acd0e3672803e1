import Verif.Host.Exec
/-
Model of the entry points of the virtual machine: `RunSmartContractCreate`, `RunSmartContractCall`
(`arwen/host/arwen.go`, `arwen/host/execution.go`).
-/
namespace Arwen
variable {χ A : Type} (E : Env χ A)

/-- nothing refers to an instance, and all the instances there were are cleaned -/
def St.idle (s : St χ A) : Bool :=
  s.rt.instance_.isNone && s.rt.warmInstance.isNone && s.rt.instanceStack.isEmpty &&
    (List.range s.nextInst).all (fun j => (s.insts j).cleaned)

/-- an instance that has never been used -/
def Inst.blank : Inst A :=
  { mod := { exports := [], signature := fun _ => none, imports := fun _ => false, hasMemory := false, initMem := [] }, destroyed := 1 }

/-- `InitState`, `initContexts` and `ClearContextStateStack` (`arwen/host/arwen.go` 252-288): neither the stack of
snapshots nor the stack of instances is cleared. The identities of instances are the model's own; those of cleaned instances
are given again when nothing refers to an instance any more. -/
def hostInit (s : St χ A) : St χ A :=
  let e := E.hook.currentEpoch s.world
  let s : St χ A := { s with
    big := s.big.clearStack.initState
    out := s.out.clearStack.initState
    met := s.met.clearStack.initState
    sto := s.sto.clearStack
    flags := { v2 := e ≥ E.v2Epoch, aot := e ≥ E.aotEpoch, dynGasLock := e ≥ E.dynEpoch,
               v3 := e ≥ E.v3Epoch, esdt := e ≥ E.esdtEpoch } }
  { s with
    rt := { s.rt with cur := {}, verifyCode := false, stack := [] }
    insts := if s.idle then fun _ => .blank else s.insts
    nextInst := if s.idle then 0 else s.nextInst }

/-- `Clean` (`arwen/host/arwen.go` 291-296). -/
def hostClean (s : St χ A) : St χ A := if s.isWarm then s else s.cleanInstance

/-- body of an entry point: `InitState`, then the body, then the deferred `Clean` -/
def withHost {α : Type} (body : M χ A α) : M χ A α := do
  M.modify (hostInit E)
  M.deferred body (fun r => do
    M.modify hostClean
    match r with
    | some r => pure r
    | none => M.panic)

/-- `performCodeDeployment` (`execution.go` 62-90). -/
def performDeployment (ex : Executor χ A) (d : CodeDeployInput) : M χ A (Except Err VMOutput) := do
  match (← deploySteps E ex d) with
  | some e => pure (.error e)
  | none => do
    let out ← M.lift (getVMOutput E)
    M.modify St.cleanInstance
    pure (.ok out)

/-- the output of an entry point after an error or a deployment -/
def outputOf (r : Except Err VMOutput) : M χ A VMOutput :=
  match r with
  | .ok out => pure out
  | .error e => M.lift (outputOnError E e)

/-- `doRunSmartContractCreate` after `InitState` (`execution.go` 27-59). -/
def createBody (ex : Executor χ A) (i : CreateInput) : M χ A VMOutput := do
  match (← M.lift (newAddress E i.vm.caller)) with
  | .error e => M.lift (outputOnError E e)
  | .ok addr => do
    M.modify (fun s => { s with rt := { s.rt with cur := { s.rt.cur with vmInput := i.vm, scAddress := addr } } })
    let _ ← meterInit i.vm
    M.modify (fun s => { s with out := s.out.addTxValue addr i.vm.callValue, sto := s.sto.setAddress addr })
    let r ← performDeployment E ex { code := i.code, metadata := i.metadata, address := addr, deployer := i.vm.caller }
    outputOf E r

/-- the common start of a call and an upgrade (`execution.go` 105-108, 156-159) -/
def enterCall (i : CallInput) : M χ A VMInput := do
  M.modify (St.rtInitFrom i)
  let vm ← meterInit i.vm
  M.modify (fun s => { s with out := s.out.addTxValue i.recipient i.vm.callValue, sto := s.sto.setAddress s.rt.cur.scAddress })
  pure vm

/-- `doRunSmartContractUpgrade` after `InitState` (`execution.go` 103-128). -/
def upgradeBody (ex : Executor χ A) (i : CallInput) : M χ A VMOutput := do
  let _ ← enterCall i
  match (← extractUpgrade) with
  | none => M.lift (outputOnError E .invalidUpgradeArguments)
  | some (code, metadata) => do
    let r ← performDeployment E ex { code := code, metadata := metadata, address := i.recipient, deployer := i.vm.caller }
    outputOf E r

/-- `verifyAllowedFunctionCall` (`execution.go` 900-916). -/
def verifyAllowed (s : St χ A) : Option Err :=
  if isInitName s.rt.cur.callFunction then some .initFuncCalledInRun
  else if s.rt.cur.callFunction = callbackName ∧ s.rt.cur.vmInput.callType ≠ .asynchronousCallBack
  then some .callBackFuncCalledInRun else none

/-- the end of `callSCMethod` (`execution.go` 876-891): asynchronous calls and callbacks -/
def afterMethod (ex : Executor χ A) (ct : CallType) : M χ A (Option Err) := do
  let s ← M.get
  match ct with
  | .asynchronousCall => do
    let (_, r) ← processAsyncInfo E ex s.rt.cur.asyncContextInfo
    match r with
    | .error e => pure (some e)
    | .ok pending => if pending.contexts.size = 0 then sendCallbackToCaller E else pure none
  | .asynchronousCallBack => processCallbackStack E
  | _ => do
    let (_, r) ← processAsyncInfo E ex s.rt.cur.asyncContextInfo
    match r with
    | .error e => pure (some e)
    | .ok _ => pure none

/-- `callSCMethod` (`execution.go` 835-898). -/
def callMethod (ex : Executor χ A) : M χ A (Option Err) := do
  let s ← M.get
  match verifyAllowed s with
  | some e => pure (some e)
  | none => do
    let ct := s.rt.cur.vmInput.callType
    match (← functionByCallType E ct) with
    | .error e =>
      if ct = .asynchronousCallBack ∧ e.isA .nilCallbackFunction then processCallbackStack E else pure (some e)
    | .ok none => M.panic
    | .ok (some f) => do
      match (← callFunction E ex f) with
      | some e => pure (some e)
      | none => do
        match (← M.gets checkFinalGas) with
        | some e => pure (some e)
        | none => afterMethod E ex ct

/-- `checkGasForGetCode` (`execution.go` 131-142). -/
def checkGetCodeGas (s : St χ A) (gasProvided : UInt64) : Option Err :=
  if s.flags.v2 && gasProvided < s.met.sched.getCode then some .notEnoughGas else none

/-- `doRunSmartContractCall` after `InitState` (`execution.go` 154-198). -/
def callBody (ex : Executor χ A) (i : CallInput) : M χ A VMOutput := do
  let vm ← enterCall i
  let s ← M.get
  match checkGetCodeGas s vm.gasProvided with
  | some _ => M.lift (outputOnError E .notEnoughGas)
  | none => do
    match (← M.lift (getSCCode E)) with
    | .error _ => M.lift (outputOnError E .contractNotFound)
    | .ok code => do
      match (← deductForExecution code) with
      | some _ => M.lift (outputOnError E .notEnoughGas)
      | none => do
        let s ← M.get
        match (← startInstance E code s.met.cur.gasForExecution false) with
        | some _ => M.lift (outputOnError E .contractInvalid)
        | none => do
          match (← callMethod E ex) with
          | some e => M.lift (outputOnError E e)
          | none => do
            let out ← M.lift (getVMOutput E)
            M.modify St.cleanInstance
            pure out

/-- Result of an entry point: an output, or an error if a panic was caught (`TryCatch`, `arwen/host/arwen.go` 386-399).
`none` means that the recursion fuel of the model was exhausted. -/
abbrev RunResult := Option (Option VMOutput)

def runResult : Res VMOutput → RunResult
  | .ok o => some (some o)
  | .panic => some none
  | .oof => none

/-- `RunSmartContractCreate` (`arwen/host/arwen.go` 327-349). -/
def runCreate (ex : Executor χ A) (i : CreateInput) (s : St χ A) : RunResult × St χ A :=
  let (r, s') := withHost E (createBody E ex i) s
  (runResult r, s')

/-- `RunSmartContractCall` (`arwen/host/arwen.go` 351-383) with `hasRetriableExecutionError` (401-407). -/
def runCall (ex : Executor χ A) (i : CallInput) (s : St χ A) : RunResult × St χ A :=
  if i.function = upgradeName then
    let (r, s') := withHost E (upgradeBody E ex i) s
    (runResult r, s')
  else
    let (r, s') := withHost E (callBody E ex i) s
    match r with
    | .ok out => (some (some out), if s'.isWarm && out.returnMessage = allocationError then s'.resetWarm else s')
    | r => (runResult r, s')

/-- A transaction for the virtual machine. -/
inductive Tx where
  | create (i : CreateInput)
  | call (i : CallInput)

/-- Run one transaction with `n` levels of recursion fuel. -/
def runTx (n : Nat) : Tx → St χ A → RunResult × St χ A
  | .create i => runCreate E (execN E n) i
  | .call i => runCall E (execN E n) i

end Arwen
