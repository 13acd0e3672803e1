import Verif.Ctx.Runtime
/-
Model of `arwen/host/execution.go` (calls), `arwen/host/asyncCall.go`, `arwen/host/breakpoints.go`.
Nested execution goes through an `Executor`, tied by fuel at the end of the file.
-/
namespace Arwen
variable {χ A : Type} (E : Env χ A)

/-- Results of `ExecuteOnDestContext`. -/
structure DestResult where
  output : VMOutput
  asyncInfo : Option AsyncContextInfo
  err : Option Err

/-- The two ways to run another contract. -/
structure Executor (χ A : Type) where
  dest : CallInput → M χ A DestResult
  same : CallInput → M χ A (Option Err)

/-- error of the call data parser (`parsers.NewCallArgsParser().ParseData`) -/
def errCallData : Err := .other 3
/-- error of `AddUint64WithErr` -/
def errAddOverflow : Err := .other 2

/-! ### Built-in functions -/

/-- `fillWithESDTValue` (`execution.go` 975-994); a missing argument panics (`none`). -/
def fillEsdt (full new : CallInput) : Option CallInput :=
  if full.function = esdtTransferName then
    match full.vm.args with
    | name :: v :: _ => some { new with vm := { new.vm with esdt :=
        [{ value := bytesToNat v, name := name, tokenType := 0, nonce := 0 }] } }
    | _ => none
  else if full.function = esdtNFTTransferName then
    match full.vm.args with
    | name :: n :: v :: _ => some { new with vm := { new.vm with esdt :=
        [{ value := bytesToNat v, name := name, tokenType := 1, nonce := UInt64.ofNat (bytesToNat n) }] } }
    | _ => none
  else some new

/-- `isSCExecutionAfterBuiltInFunc` (`execution.go` 918-973). -/
def afterBuiltin (input : CallInput) (out : VMOutput) : M χ A (Except Err (Option CallInput)) := do
  if out.returnCode ≠ .ok then pure (.ok none)
  else do
    let recipient : Option Addr :=
      if input.function = esdtNFTTransferName ∧ input.vm.caller = input.recipient then input.vm.args[3]?
      else some input.recipient
    match recipient with
    | none => M.panic
    | some recipient => do
      let s ← M.get
      if !sameShard E s input.vm.caller recipient then pure (.ok none)
      else if !E.hook.isSmartContract s.world recipient then pure (.ok none)
      else
        match (out.accounts.get? recipient).map OutAcc.transfers with
        | some [t] =>
          match parseCallData t.data with
          | none => pure (.error errCallData)
          | some (function, arguments) =>
            let new : CallInput :=
              { vm := { caller := input.vm.caller, args := arguments, callValue := 0, callType := input.vm.callType,
                        gasPrice := input.vm.gasPrice, gasProvided := t.gasLimit, gasLocked := t.gasLocked,
                        originalTxHash := input.vm.originalTxHash, currentTxHash := input.vm.currentTxHash },
                recipient := recipient, function := function, allowInit := false }
            match fillEsdt input new with
            | none => M.panic
            | some new => pure (.ok (some new))
        | _ => pure (.ok none)

/-- `addOutputTransferToVMOutput` (`execution.go` 770-801). -/
def addTransferToOutput (function : Bytes) (args : List Bytes) (sender recipient : Addr) (ct : CallType)
    (out : VMOutput) : VMOutput :=
  let acc := (out.accounts.get? recipient).getD {}
  { out with accounts := out.accounts.insert recipient { acc with transfers := acc.transfers ++
      [{ value := 0, data := buildCallData function args, callType := ct, sender := sender }] } }

/-- `addESDTTransferToVMOutputSCIntraShardCall` (`execution.go` 745-768). -/
def addEsdtTransfer (s : St χ A) (input : CallInput) (out : VMOutput) : VMOutput :=
  if out.returnCode ≠ .ok then out
  else if !sameShard E s input.recipient input.vm.caller then out
  else if input.function = esdtTransferName then
    addTransferToOutput input.function input.vm.args input.vm.caller input.recipient input.vm.callType out
  else if input.function = esdtNFTTransferName then
    match input.vm.args with
    | [_, _, _, d] => addTransferToOutput input.function input.vm.args input.vm.caller d input.vm.callType out
    | _ => out
  else out

/-- `ProcessBuiltInFunction` of the hook (`blockchain.go` 302-304). -/
def processBuiltin (input : CallInput) : M χ A (Except Err BuiltinOutput) :=
  M.lift (fun s => ((E.hook.processBuiltIn s.world input).1, { s with world := (E.hook.processBuiltIn s.world input).2 }))

/-- remove the output transfers of all accounts (`execution.go` 731-735) -/
def clearTransfers (out : VMOutput) : VMOutput :=
  { out with accounts := ⟨out.accounts.entries.map (fun p => (p.1, { p.2 with transfers := [] })),
    by simpa [List.map_map, Function.comp_def] using out.accounts.nodup⟩ }

/-- `callBuiltinFunction` (`execution.go` 716-742). -/
def callBuiltin (input : CallInput) : M χ A (Except Err (Option CallInput × BuiltinOutput)) := do
  match (← processBuiltin E input) with
  | .error e => do
    useGas input.vm.gasProvided
    pure (.error e)
  | .ok b => do
    match (← afterBuiltin E input b.out) with
    | .error e => do
      useGas input.vm.gasProvided
      pure (.error e)
    | .ok post => do
      let out := if post.isSome then clearTransfers b.out else b.out
      trackBuiltinGas input.vm.gasProvided out.gasRemaining post
      let s ← M.get
      pure (.ok (post, { b with out := addEsdtTransfer E s input out }))

/-- `handleBuiltinFunctionCall` (`execution.go` 251-262). -/
def handleBuiltin (input : CallInput) : M χ A (Except Err (Option CallInput × VMOutput)) := do
  match (← callBuiltin E input) with
  | .error e => pure (.error e)
  | .ok (post, b) => do
    let out ← M.lift (fun s => ((addToActive s.out.cur b).2, { s with out := { s.out with cur := (addToActive s.out.cur b).1 } }))
    pure (.ok (post, out))

/-- `ExecuteESDTTransfer` (`execution.go` 660-714): the output and the gas consumed. -/
def executeEsdtTransfer (dest sender : Addr) (token : Bytes) (nonce : UInt64) (value : Int) (ct : CallType) :
    M χ A (Except Err (VMOutput × UInt64)) := do
  let s ← M.get
  let provided := s.gasLeft
  let vm (args : List Bytes) : VMInput :=
    { caller := sender, args := args, callValue := 0, callType := ct, gasPrice := s.rt.cur.vmInput.gasPrice,
      gasProvided := provided, gasLocked := 0 }
  let input : CallInput :=
    if nonce > 0 then
      { vm := vm [token, natToBytes nonce.toNat, natToBytes value.natAbs, dest], recipient := sender, function := esdtNFTTransferName }
    else { vm := vm [token, natToBytes value.natAbs], recipient := dest, function := esdtTransferName }
  match (← processBuiltin E input) with
  | .error e => pure (.error e)
  | .ok b => do
    if b.out.returnCode ≠ .ok then pure (.error .executionFailed)
    else do
      let consumed := b.out.accounts.entries.foldl (fun g p => p.2.transfers.foldl (fun g t => subU64 g t.gasLimit) g)
        (subU64 provided b.out.gasRemaining)
      if ct ≠ .asynchronousCallBack then do
        let s ← M.get
        if s.gasLeft < consumed then pure (.error .notEnoughGas)
        else do
          useGas consumed
          pure (.ok (b.out, consumed))
      else pure (.ok (b.out, consumed))

/-- `TransferESDT` (`output.go` 305-388). -/
def transferESDT (dest sender : Addr) (token : Bytes) (nonce : UInt64) (value : Int) (ci : Option CallInput) :
    M χ A (Except Err UInt64) := do
  let s ← M.get
  let isSC := E.hook.isSmartContract s.world dest
  let same := sameShard E s sender dest
  let isExec := isSC && ci.isSome
  match (← executeEsdtTransfer E dest sender token nonce value
      (if isExec then .esdtTransferAndExecute else .directCall)) with
  | .error e => pure (.error e)
  | .ok (out, consumed) => do
    let provided := match ci with | some i => i.vm.gasProvided | none => 0
    if isExec && consumed > provided then pure (.error .notEnoughGas)
    else do
      let remaining : UInt64 := if isExec then provided - consumed else 0
      let s ← M.get
      if isExec && remaining > s.gasLeft then pure (.error .notEnoughGas)
      else do
        if isExec && !same then useGas remaining else pure ()
        let data : Bytes :=
          if nonce > 0 then
            let base := buildCallData esdtNFTTransferName [token, natToBytes nonce.toNat, natToBytes value.natAbs]
            if same then base ++ atSign :: hexEncode dest
            else match (out.accounts.get? dest).map OutAcc.transfers with
              | some [t] => t.data
              | _ => base
          else buildCallData esdtTransferName [token, natToBytes value.natAbs]
        let data := match ci with
          | none => data
          | some i => buildCallData data (i.function :: i.vm.args)
        M.modify (addTransfer dest { value := 0, gasLimit := if same then 0 else remaining, gasLocked := 0,
                                     data := data, callType := .directCall, sender := sender })
        M.modify (fun s => { s with out := { s.out with cur := { s.out.cur with logs := s.out.cur.logs ++ out.logs } } })
        pure (.ok remaining)

/-! ### Deployment from a contract -/

/-- `CreateNewContract` (`execution.go` 445-508). -/
def createNewContract (ex : Executor χ A) (i : CreateInput) : M χ A (Except Err Addr) := do
  match (← deductForIndirectDeployment i.code) with
  | some e => pure (.error e)
  | none => do
    let s ← M.get
    if s.rt.cur.readOnly then pure (.error .invalidCallOnReadOnlyMode)
    else do
      match (← M.lift (newAddress E i.vm.caller)) with
      | .error e => pure (.error e)
      | .ok addr => do
        let s ← M.get
        if accountExists E s addr then pure (.error .deploymentOverExistingAccount)
        else do
          let d : CodeDeployInput := { code := i.code, metadata := i.metadata, address := addr, deployer := i.vm.caller }
          M.modify (fun s => { s with out := s.out.deployCode d })
          M.modify (fun s => { s with rt := { s.rt with verifyCode := true } })
          let r ← ex.dest { vm := i.vm, recipient := addr, function := initName, allowInit := true }
          match r.err with
          | some e => do
            M.modify (fun s => { s with out := s.out.deleteAcc addr })
            pure (.error e)
          | none => do
            M.modify (increaseNonce E i.vm.caller)
            pure (.ok addr)

/-! ### Running a contract -/

/-- Execution of the commands of API functions. -/
def runCmd (ex : Executor χ A) : (c : Cmd) → M χ A c.Resp
  | .useGas n => useGas n
  | .memStore off data => memStore E off data
  | .failExecution e => failExecution E (some e)
  | .signalUserError msg => signalUserError msg
  | .executeAsyncCall a d v => executeAsyncCall a d v
  | .addAsyncContextCall id c => M.modify (addAsyncContextCall id c)
  | .setAsyncContextCallback id cb => M.lift (setAsyncContextCallback id cb)
  | .getBalance a => M.lift (getBalance E a)
  | .getCode a => M.lift (getCode E a)
  | .getStorage k => getStorage E k
  | .getStorageUnmetered k => getStorageUnmetered E k
  | .getStorageFromAddress a k => getStorageFromAddress E a k
  | .setStorage k v => setStorage E k v
  | .setTimeLock k v => setProtectedStorage E (customStorageKey timelockPrefix k) v
  | .finish d => M.modify (fun s => { s with out := s.out.finish d })
  | .writeLog a t d => M.modify (fun s => { s with out := s.out.writeLog s.rt.cur.readOnly a t d })
  | .transfer d sn gl gk v data ct => M.lift (transfer E d sn gl gk v data ct)
  | .transferESDT d sn tok n v ci => transferESDT E d sn tok n v ci
  | .bigGet h => M.lift (fun s => ((s.big.getOne h).1, { s with big := (s.big.getOne h).2 }))
  | .bigSet h v => M.modify (fun s => { s with big := s.big.setVal h v })
  | .bigPut v => M.lift (fun s => ((s.big.put v).1, { s with big := (s.big.put v).2 }))
  | .executeOnDest i => do
    let r ← ex.dest i
    pure r.err
  | .executeOnSame i => ex.same i
  | .executeReadOnly i => do
    M.modify (fun s => { s with rt := { s.rt with cur := { s.rt.cur with readOnly := true } } })
    let r ← ex.same i
    M.modify (fun s => { s with rt := { s.rt with cur := { s.rt.cur with readOnly := false } } })
    pure r
  | .createContract i => createNewContract E ex i
  | .revertSnapshot n => M.modify (fun s => { s with world := E.hook.revert s.world n })
  | .outOfGas => setBreakpoint .outOfGas

/-- Execution of an API function. -/
def interp {α : Type} (ex : Executor χ A) : Free χ A α → M χ A α
  | .pure a => pure a
  | .ask k => fun s => interp ex (k s) s
  | .op c k => do
    let r ← runCmd E ex c
    interp ex (k r)
  | .panic => M.panic

/-- Execution of a WASM function on instance `i`: `true` if it returns, `false` if Wasmer reports an error
(a trap, exhausted gas, or a breakpoint set by an API function). -/
def runProg (ex : Executor χ A) (i : Nat) : Prog A → M χ A Bool
  | .ret => pure true
  | .trap => pure false
  | .burn n k => do
    let s ← M.get
    let p := (s.insts i).points
    M.modify (fun s => s.modInst i (fun x => { x with points := addU64 p n }))
    if p.toNat + n.toNat > (s.insts i).limit.toNat then do
      M.modify (fun s => s.modInst i (fun x => { x with bp := .outOfGas }))
      pure false
    else runProg ex i k
  | .call a k => do
    let r ← interp E ex (E.api a)
    let s ← M.get
    if (s.insts i).bp ≠ .none then pure false else runProg ex i (k r)
  | .load off len k => do
    let s ← M.get
    let mem := (s.insts i).mem
    if off + len ≤ mem.length then runProg ex i (k ((mem.drop off).take len)) else pure false
  | .store off bs k => do
    let s ← M.get
    if off + bs.length ≤ (s.insts i).mem.length then do
      M.modify (fun s => s.modInst i (fun x => { x with mem := overwrite x.mem off bs }))
      runProg ex i k
    else pure false

/-! ### Asynchronous calls -/

/-- `canExecuteSynchronously` (`asyncCall.go` 201-207). -/
def canExecSync (dest : Addr) : M χ A Bool := do
  match (← M.lift (getCode E dest)) with
  | .ok code => pure (code.length > 0)
  | .error _ => pure false

/-- `isESDTTransferOnReturnDataFromFunctionAndArgs` (`asyncCall.go` 91-101). -/
def isEsdtOnReturn (function : Bytes) (args : List Bytes) : Bool :=
  (function = esdtTransferName && args.length = 2) || (function = esdtNFTTransferName && args.length = 4)

/-- `determineAsyncCallExecutionMode` (`asyncCall.go` 103-135). -/
def asyncMode (info : AsyncCallInfo) : M χ A (Except Err AsyncMode) := do
  match parseCallData info.data with
  | none => pure (.error errCallData)
  | some (function, args) => do
    let s ← M.get
    let same := sameShard E s s.rt.cur.scAddress info.destination
    if E.isBuiltin function then
      if same then
        if isEsdtOnReturn function args && s.rt.cur.vmInput.callType = .asynchronousCall &&
            s.rt.cur.vmInput.caller = info.destination then pure (.ok .esdtTransferOnCallBack)
        else pure (.ok .builtinIntraShard)
      else pure (.ok .builtinCrossShard)
    else do
      if (← canExecSync E info.destination) then pure (.ok .syncCall) else pure (.ok .unknown)

/-- `sendAsyncCallToDestination` (`asyncCall.go` 209-233). -/
def sendAsync (v : AsyncView) : M χ A (Option Err) := do
  let s ← M.get
  match (← M.lift (transfer E v.destination s.rt.cur.scAddress v.gasLimit v.gasLocked (bytesToNat v.valueBytes) v.data .asynchronousCall)) with
  | some e => do
    withFault E e
    pure (some e)
  | none => do
    let s ← M.get
    useGas s.gasLeft
    pure none

/-- `sendCallbackToCurrentCaller` (`asyncCall.go` 236-265). -/
def sendCallbackToCaller : M χ A (Option Err) := do
  let s ← M.get
  let data := buildCallData [] (E.retCodeText s.out.cur.returnCode :: s.out.cur.returnData)
  match (← M.lift (transfer E s.rt.cur.vmInput.caller s.rt.cur.scAddress s.gasLeft 0 s.rt.cur.vmInput.callValue data .asynchronousCallBack)) with
  | some e => do
    withFault E e
    pure (some e)
  | none => do
    let s ← M.get
    useGas s.gasLeft
    pure none

/-- `sendStorageCallbackToDestination` (`asyncCall.go` 267-289). -/
def sendStorageCallback (caller : Addr) (data : Bytes) : M χ A (Option Err) := do
  let s ← M.get
  match (← M.lift (transfer E caller s.rt.cur.scAddress s.gasLeft 0 s.rt.cur.vmInput.callValue data .asynchronousCallBack)) with
  | some e => do
    withFault E e
    pure (some e)
  | none => pure none

/-- `createDestinationContractCallInput` (`asyncCall.go` 291-319). -/
def destinationInput (s : St χ A) (v : AsyncView) : Option CallInput :=
  (parseCallData v.data).map (fun p =>
    { vm := { caller := s.rt.cur.scAddress, args := p.2, callValue := bytesToNat v.valueBytes,
              callType := .asynchronousCall, gasPrice := s.rt.cur.vmInput.gasPrice, gasProvided := s.gasLeft,
              gasLocked := v.gasLocked, currentTxHash := s.rt.cur.vmInput.currentTxHash,
              originalTxHash := s.rt.cur.vmInput.originalTxHash },
      recipient := v.destination, function := p.1 })

/-- `computeCallValueFromLastOutputTransfer` (`asyncCall.go` 321-346). -/
def callbackValue (s : St χ A) (out : VMOutput) : Int :=
  if !s.flags.v3 then 0
  else if out.returnData.length > 0 then 0
  else
    match out.accounts.get? s.rt.cur.scAddress with
    | none => 0
    | some acc =>
      match acc.transfers.getLast? with
      | none => 0
      | some t => if t.data.length = 0 then t.value else 0

/-- `computeDataLengthFromArguments` (`asyncCall.go` 445-458). -/
def dataLength (function : Bytes) (args : List Bytes) : UInt64 :=
  args.foldl (fun n a => addU64 n (UInt64.ofNat a.length)) (addU64 (UInt64.ofNat function.length) (UInt64.ofNat args.length))

/-- Arguments of the callback before the ESDT case (`asyncCall.go` 362-383): arguments and whether it reports an error. -/
def callbackArgs (out : VMOutput) (err : Option Err) : List Bytes × Bool :=
  let rc := natToBytes out.returnCode.toNat
  if err = none ∧ out.returnCode = .ok then (rc :: out.returnData, false) else ([rc, out.returnMessage], true)

/-- `isESDTTransferOnReturnDataWithNoAdditionalData` (`asyncCall.go` 76-89). -/
def esdtReturn (out : VMOutput) (err : Option Err) : Option (Bytes × List Bytes) :=
  if err = none ∧ out.returnCode = .ok then
    match out.returnData with
    | [] => none
    | d :: _ =>
      match parseCallData d with
      | none => none
      | some (f, args) => if isEsdtOnReturn f args then some (f, args) else none
  else none

/-- `createCallbackContractCallInput` (`asyncCall.go` 348-422). The sum of gas remaining and gas locked is unchecked. -/
def callbackInput (s : St χ A) (gasLocked : UInt64) (out : VMOutput) (initiator : Addr) (cb : Bytes)
    (err : Option Err) : Except Err CallInput :=
  let (args, failed) := callbackArgs out err
  let gasLimit := out.gasRemaining + gasLocked
  let use := addU64 (s.met.sched.api .asyncCallStep) (mulU64 s.met.sched.dataCopyPerByte (dataLength cb args))
  if gasLimit ≤ use then .error .notEnoughGas
  else
    let input : CallInput :=
      { vm := { caller := initiator, args := args, callValue := callbackValue s out, callType := .asynchronousCallBack,
                gasPrice := s.rt.cur.vmInput.gasPrice, gasProvided := gasLimit - use,
                currentTxHash := s.rt.cur.vmInput.currentTxHash, originalTxHash := s.rt.cur.vmInput.originalTxHash,
                returnCallAfterError := failed },
        recipient := s.rt.cur.scAddress, function := cb }
    match esdtReturn out err with
    | none => .ok input
    | some (f, eargs) => .ok { input with function := f, vm := { input.vm with
        args := eargs ++ [cb, natToBytes out.returnCode.toNat] ++ out.returnData.tail } }

/-- `processCallbackVMOutput` (`asyncCall.go` 424-443). -/
def processCallbackOutput (out : Option VMOutput) (err : Option Err) : M χ A Unit := do
  match err with
  | none => pure ()
  | some e => do
    M.modify (fun s => { s with rt := { s.rt with cur := { s.rt.cur with vmInput := { s.rt.cur.vmInput with gasProvided := 0 } } } })
    let out ← match out with
      | some o => pure o
      | none => M.lift (outputOnError E e)
    M.modify (fun s => { s with out :=
      ((s.out.setReturnMessage out.returnMessage).finish (E.retCodeText out.returnCode)).finish s.rt.cur.vmInput.currentTxHash })

/-- `executeSyncDestinationCall` (`asyncCall.go` 137-160). -/
def execSyncDest (ex : Executor χ A) (v : AsyncView) : M χ A (Option VMOutput × Option Err) := do
  let s ← M.get
  match destinationInput s v with
  | none => pure (none, some errCallData)
  | some input => do
    let r ← ex.dest input
    pure (some r.output, r.err)

/-- `executeSyncCallbackCall` (`asyncCall.go` 162-199); a missing destination output panics. -/
def execSyncCallback (ex : Executor χ A) (v : AsyncView) (out : Option VMOutput) (err : Option Err) :
    M χ A (Option VMOutput × Option Err) := do
  match out with
  | none => M.panic
  | some out => do
    let s ← M.get
    match callbackInput s v.gasLocked out v.destination callbackName err with
    | .error e => pure (none, some e)
    | .ok input => do
      restoreGas v.gasLocked
      let r ← ex.dest input
      pure (some r.output, r.err)

/-- `handleAsyncCallBreakpoint` (`asyncCall.go` 16-74). -/
def handleAsyncBreakpoint (ex : Executor χ A) : M χ A (Option Err) := do
  setBreakpoint .none
  let s ← M.get
  match s.rt.cur.asyncCallInfo with
  | none => M.panic
  | some info => do
    match (← asyncMode E info) with
    | .error e => pure (some e)
    | .ok .unknown => sendAsync E info.view
    | .ok .builtinCrossShard => do
      let (_, e) ← execSyncDest ex info.view
      pure e
    | .ok .esdtTransferOnCallBack => do
      M.modify (fun s => { s with out := s.out.prependFinish info.data })
      restoreGas info.gasLocked
      pure none
    | .ok _ => do
      let (out, e) ← execSyncDest ex info.view
      let (cbOut, cbErr) ← execSyncCallback ex info.view out e
      processCallbackOutput E cbOut cbErr
      pure none

/-- `handleBreakpointIfAny` and `handleBreakpoint` (`breakpoints.go` 7-43), after Wasmer reported an error. -/
def handleBreakpoint (ex : Executor χ A) : M χ A (Option Err) := do
  match (← getBreakpoint) with
  | .none => pure (some .executionFailed)
  | .asyncCall => handleAsyncBreakpoint E ex
  | .executionFailed => pure (some .executionFailed)
  | .signalError => pure (some .signalError)
  | .outOfGas => pure (some .notEnoughGas)

/-- Calling an exported function and handling the breakpoint (`execution.go` 650-655, 823-826, 863-866). -/
def callFunction (ex : Executor χ A) (f : Prog A) : M χ A (Option Err) := do
  let s ← M.get
  match s.rt.instance_ with
  | none => M.panic
  | some i => do
    if (← runProg E ex i f) then pure none else handleBreakpoint E ex

/-- the calls that are still pending (`getPendingAsyncCalls`, `asyncCall.go` 627-655) -/
def pendingCalls (info : AsyncContextInfo) : AsyncContextInfo :=
  { info with contexts := info.contexts.entries.foldl (fun m p =>
      let calls := p.2.calls.filter (fun c => c.status = .pending)
      if calls = [] then m else m.insert p.1 { callback := p.2.callback, calls := calls }) AMap.empty }

/-- The first loop of `setupAsyncCallsGas` (`asyncCall.go` 766-786): gas needed by the calls, checked step by step. -/
def gasNeeded (gasLeft : UInt64) : UInt64 → List AsyncGeneratedCall → Except Err UInt64
  | acc, [] => .ok acc
  | acc, c :: rest =>
    match addU64E acc c.providedGas with
    | none => .error errAddOverflow
    | some n => if n > gasLeft then .error .notEnoughGas else gasNeeded gasLeft n rest

/-- `setupAsyncCallsGas` (`asyncCall.go` 761-805), with the gas left as an argument. -/
def setupCallsGas (gasLeft : UInt64) (info : AsyncContextInfo) : Except Err AsyncContextInfo :=
  let calls := info.contexts.entries.flatMap (fun p => p.2.calls)
  match gasNeeded gasLeft 0 calls with
  | .error e => .error e
  | .ok needed =>
    let free := (calls.filter (fun c => c.providedGas = 0)).length
    if free ≠ 0 ∧ gasLeft ≤ needed then .error .notEnoughGas
    else
      let share : UInt64 := (gasLeft - needed) / UInt64.ofNat free
      .ok { info with contexts := info.contexts.mapVal (fun ctx => { ctx with calls := ctx.calls.map (fun c =>
        { c with gasLimit := if c.providedGas = 0 then share else c.providedGas }) }) }

/-- `callbackAsync` (`asyncCall.go` 539-566): the call with its new status, and the error. -/
def callbackAsync (ex : Executor χ A) (c : AsyncGeneratedCall) (out : VMOutput) (err : Option Err) :
    M χ A (AsyncGeneratedCall × Option Err) := do
  let ok := out.returnCode = .ok
  let c' := { c with status := if ok then .resolved else .rejected }
  let cb := if ok then c.successCallback else c.errorCallback
  let s ← M.get
  match callbackInput s 0 out c.destination cb err with
  | .error e => pure (c', some e)
  | .ok input => do
    let r ← ex.dest input
    processCallbackOutput E (some r.output) r.err
    pure (c', none)

/-- `processAsyncCall` (`asyncCall.go` 524-534); unparsable call data and a missing result map are nil dereferences. -/
def processAsyncCall (ex : Executor χ A) (c : AsyncGeneratedCall) : M χ A (AsyncGeneratedCall × Option Err) := do
  let s ← M.get
  match destinationInput s c.view with
  | none => M.panic
  | some input => do
    let r ← ex.dest input
    match r.asyncInfo with
    | none => M.panic
    | some m =>
      if (pendingCalls m).contexts.size = 0 then callbackAsync E ex c r.output r.err
      else pure (c, r.err)

/-- the inner loop of `processAsyncInfo` (`asyncCall.go` 480-489) -/
def processCalls (ex : Executor χ A) : List AsyncGeneratedCall → M χ A (List AsyncGeneratedCall × Option Err)
  | [] => pure ([], none)
  | c :: rest => do
    if (← canExecSync E c.destination) then do
      let (c', e) ← processAsyncCall E ex c
      match e with
      | some e => pure (c' :: rest, some e)
      | none => do
        let (rest', e) ← processCalls ex rest
        pure (c' :: rest', e)
    else do
      let (rest', e) ← processCalls ex rest
      pure (c :: rest', e)

/-- the outer loop of `processAsyncInfo` (`asyncCall.go` 479-490), over the context identifiers -/
def processContexts (ex : Executor χ A) : List Bytes → AsyncContextInfo → M χ A (AsyncContextInfo × Option Err)
  | [], info => pure (info, none)
  | id :: rest, info => do
    let ctx := (info.contexts.get? id).getD {}
    let (calls, e) ← processCalls E ex ctx.calls
    let info' := { info with contexts := info.contexts.insert id { ctx with calls := calls } }
    match e with
    | some e => pure (info', some e)
    | none => processContexts ex rest info'

/-- the sending loop of `processAsyncInfo` (`asyncCall.go` 507-516) -/
def sendPending : List AsyncGeneratedCall → M χ A (Option Err)
  | [] => pure none
  | c :: rest => do
    if (← canExecSync E c.destination) then sendPending rest
    else do
      match (← sendAsync E c.view) with
      | some e => pure (some e)
      | none => sendPending rest

/-- key of the pending calls of the current transaction -/
def asyncKey (s : St χ A) : Bytes := customStorageKey asyncPrefix s.rt.cur.vmInput.originalTxHash

/-- `savePendingAsyncCalls` (`asyncCall.go` 571-591). -/
def savePending (info : AsyncContextInfo) : M χ A (Option Err) := do
  if info.contexts.size = 0 then pure none
  else do
    let s ← M.get
    match E.encodeAsync info with
    | .error e => pure (some e)
    | .ok data => do
      let (_, e) ← setProtectedStorage E (asyncKey s) data
      pure e

/-- `processAsyncInfo` (`asyncCall.go` 469-519): the information with the new statuses, and the pending calls or an error. -/
def processAsyncInfo (ex : Executor χ A) (info : AsyncContextInfo) :
    M χ A (AsyncContextInfo × Except Err AsyncContextInfo) := do
  if info.contexts.size = 0 then pure (info, .ok info)
  else do
    let s ← M.get
    match setupCallsGas s.gasLeft info with
    | .error e => pure (info, .error e)
    | .ok info => do
      let (info, e) ← processContexts E ex info.contexts.keys info
      match e with
      | some e => pure (info, .error e)
      | none => do
        let pending := pendingCalls info
        if pending.contexts.size = 0 then pure (info, .ok pending)
        else do
          match (← savePending E pending) with
          | some e => pure (info, .error e)
          | none => do
            let s ← M.get
            match setupCallsGas s.gasLeft pending with
            | .error e => pure (info, .error e)
            | .ok pending => do
              match (← sendPending E (pending.contexts.entries.flatMap (fun p => p.2.calls))) with
              | some e => pure (info, .error e)
              | none => pure (info, .ok pending)

/-- `getCurrentAsyncInfo` (`asyncCall.go` 845-862). -/
def currentAsyncInfo : M χ A (Except Err AsyncContextInfo) := do
  let s ← M.get
  let buff ← getStorageUnmetered E (asyncKey s)
  if buff = [] then pure (.ok {}) else pure (E.decodeAsync buff)

/-- the first call (in map order) whose destination is `caller` -/
def findCall (caller : Addr) (info : AsyncContextInfo) : Option AsyncGeneratedCall :=
  (info.contexts.entries.flatMap (fun p => p.2.calls)).find? (fun c => caller = c.destination)

/-- `getFunctionByCallType` (`asyncCall.go` 807-843); `.ok none` is a nil function. -/
def functionByCallType (ct : CallType) : M χ A (Except Err (Option (Prog A))) := do
  if ct ≠ .asynchronousCallBack then do
    match (← getFunctionToCall) with
    | .error e => pure (.error e)
    | .ok f => pure (.ok (some f))
  else do
    match (← currentAsyncInfo E) with
    | .error e => pure (.error e)
    | .ok info => do
      let s ← M.get
      match findCall s.rt.cur.vmInput.caller info with
      | some c => do
        M.modify (fun s => { s with rt := { s.rt with cur := { s.rt.cur with callFunction := c.successCallback } } })
        match (← getFunctionToCall) with
        | .error _ => pure (.ok none)
        | .ok f => pure (.ok (some f))
      | none => do
        match (← getFunctionToCall) with
        | .error _ => pure (.error .nilCallbackFunction)
        | .ok f => pure (.ok (some f))

/-- the context of the answered call (`asyncCall.go` 683-702); an empty identifier counts as not found -/
def findContext (caller : Addr) (info : AsyncContextInfo) : Option (Bytes × AsyncContext) :=
  info.contexts.entries.find? (fun p => p.1 ≠ [] && p.2.calls.any (fun c => caller = c.destination))

/-- `processCallbackStack` (`asyncCall.go` 663-754). The same-shard case dereferences a nil call. -/
def processCallbackStack : M χ A (Option Err) := do
  let s ← M.get
  let key := asyncKey s
  let buff ← getStorageUnmetered E key
  if buff = [] then pure none
  else
    match E.decodeAsync buff with
    | .error e => pure (some e)
    | .ok info =>
      match findContext s.rt.cur.vmInput.caller info with
      | none => pure (some .callBackFuncNotExpected)
      | some (id, ctx) => do
        let contexts := if ctx.calls.length ≤ 1 then info.contexts.erase id else info.contexts
        if contexts.size > 0 then pure none
        else do
          let (_, e) ← setProtectedStorage E key []
          match e with
          | some e => pure (some e)
          | none => do
            if (← canExecSync E info.caller) then do
              let _ ← M.lift (getVMOutput E)
              M.panic
            else sendStorageCallback E info.caller info.returnData

/-! ### Calls -/

/-- `isInitFunctionBeingCalled` (`execution.go` 424-427). -/
def isInitName (f : Bytes) : Bool := f = initName || f = initEthName

/-- `checkFinalGasAfterExit` (`execution.go` 803-814). -/
def checkFinalGas (s : St χ A) : Option Err :=
  if !s.flags.v2 then none
  else if s.pointsUsed > s.met.cur.gasForExecution then some .notEnoughGas else none

/-- `callInitFunction` (`execution.go` 816-833). -/
def callInit (ex : Executor χ A) : M χ A (Option Err) := do
  match (← getInitFunction) with
  | none => pure none
  | some f => do
    match (← callFunction E ex f) with
    | some e => pure (some e)
    | none => M.gets checkFinalGas

/-- `checkUpgradePermission` (`execution.go` 510-530). -/
def checkUpgradePermission (s : St χ A) (i : CallInput) : Option Err :=
  match E.hook.userAccount s.world i.recipient with
  | .error e => some e
  | .ok none => some .nilContract
  | .ok (some ua) =>
    if metaUpgradeable ua.codeMetadata && i.vm.caller = ua.owner then none else some .upgradeNotAllowed

/-- `ExtractCodeUpgradeFromArgs` (`runtime.go` 517-529). -/
def extractUpgrade : M χ A (Option (Bytes × Bytes)) := fun s =>
  match s.rt.cur.vmInput.args with
  | code :: metadata :: rest => (.ok (some (code, metadata)),
      { s with rt := { s.rt with cur := { s.rt.cur with vmInput := { s.rt.cur.vmInput with args := rest } } } })
  | _ => (.ok none, s)

/-- the steps shared by `performCodeDeployment` (`execution.go` 62-90) and `executeUpgrade` (550-572):
initial gas, validated instance, `init`, deployment in the output -/
def deploySteps (ex : Executor χ A) (d : CodeDeployInput) : M χ A (Option Err) := do
  match (← deductForDirectDeployment d.code) with
  | some e => do
    M.modify (fun s => { s with out := s.out.setReturnCode .outOfGas })
    pure (some e)
  | none => do
    M.modify (fun s => { s with rt := { s.rt with verifyCode := true } })
    let s ← M.get
    match (← startInstance E d.code s.met.cur.gasForExecution true) with
    | some _ => pure (some .contractInvalid)
    | none => do
      match (← callInit E ex) with
      | some e => pure (some e)
      | none => do
        M.modify (fun s => { s with out := s.out.deployCode d })
        pure none

/-- `executeUpgrade` (`execution.go` 534-579). -/
def executeUpgrade (ex : Executor χ A) (i : CallInput) : M χ A (Option Err) := do
  let s ← M.get
  match checkUpgradePermission E s i with
  | some e => pure (some e)
  | none => do
    match (← extractUpgrade) with
    | none => pure (some .invalidUpgradeArguments)
    | some (code, metadata) => do
      match (← deploySteps E ex { code := code, metadata := metadata, address := i.recipient, deployer := i.vm.caller }) with
      | some e => pure (some e)
      | none => do
        let s ← M.get
        if s.out.cur.returnCode ≠ .ok then pure (some .returnCodeNotOk) else pure none

/-- `callSCMethodIndirect` (`execution.go` 641-656). -/
def callIndirect (ex : Executor χ A) : M χ A (Option Err) := do
  match (← getFunctionToCall) with
  | .error e => if e.isA .nilCallbackFunction then pure none else pure (some e)
  | .ok f => callFunction E ex f

/-- `execute` (`execution.go` 595-639). -/
def execute (ex : Executor χ A) (i : CallInput) : M χ A (Option Err) := do
  let s ← M.get
  if isInitName s.rt.cur.callFunction && !i.allowInit then pure (some .initFuncCalledInRun)
  else do
    useGas i.vm.gasProvided
    if i.function = upgradeName then executeUpgrade E ex i
    else do
      match (← M.lift (getSCCode E)) with
      | .error e => pure (some e)
      | .ok code => do
        match (← deductForExecution code) with
        | some e => pure (some e)
        | none => do
          let s ← M.get
          match (← startInstance E code s.met.cur.gasForExecution false) with
          | some e => pure (some e)
          | none => do
            match (← callIndirect E ex) with
            | some e => pure (some e)
            | none => do
              let s ← M.get
              if s.out.cur.returnCode ≠ .ok then pure (some .returnCodeNotOk) else pure none

/-- `copyTxHashesFromContext` (`execution.go` 201-216). -/
def copyTxHashes (s : St χ A) (i : CallInput) : CallInput :=
  if !s.flags.esdt then i
  else { i with vm := { i.vm with
    originalTxHash := if s.rt.cur.vmInput.originalTxHash.length > 0 then s.rt.cur.vmInput.originalTxHash else i.vm.originalTxHash
    currentTxHash := if s.rt.cur.vmInput.currentTxHash.length > 0 then s.rt.cur.vmInput.currentTxHash else i.vm.currentTxHash } }

/-- `finishExecuteOnDestContext` (`execution.go` 311-348). -/
def finishDest (err : Option Err) : M χ A VMOutput := do
  let out ← match err with
    | some e => M.lift (outputOnError E e)
    | none => M.lift (getVMOutput E)
  M.modify (fun s => { s with big := s.big.popSet, sto := s.sto.popSet })
  if out.returnCode = .ok then M.modify (fun s => { s with met := s.met.popMerge, out := s.out.popMerge })
  else M.modify (fun s => { s with met := s.met.popSet, out := s.out.popSet })
  M.modify St.rtPopSet
  restoreGas out.gasRemaining
  pure out

/-- Pushing the contexts and initializing them for the callee (`execution.go` 265-281): the input as `execute` sees it. -/
def enterDest (i : CallInput) : M χ A CallInput := do
  M.modify (fun s => { s with big := s.big.push.initState, out := s.out.push.censor })
  let s ← M.get
  let i := copyTxHashes s i
  M.modify (fun s => (s.rtPush).rtInitFrom i)
  M.modify (fun s => { s with met := s.met.push })
  let vm ← meterInit i.vm
  M.modify (fun s => { s with sto := s.sto.push.setAddress s.rt.cur.scAddress })
  pure { i with vm := vm }

/-- The body of `executeOnDestContextNoBuiltinFunction` (`execution.go` 293-308): asynchronous information and error. -/
def bodyDest (ex : Executor χ A) (i : CallInput) : M χ A (Option AsyncContextInfo × Option Err) := do
  let e ← if i.vm.callType ≠ .asynchronousCallBack ∨ i.vm.callValue = 0
    then M.lift (transferValueOnly E i.recipient i.vm.caller i.vm.callValue false) else pure none
  match e with
  | some e => pure (none, some e)
  | none => do
    match (← execute E ex i) with
    | some e => pure (none, some e)
    | none => do
      let s ← M.get
      let (info, r) ← processAsyncInfo E ex s.rt.cur.asyncContextInfo
      match r with
      | .error e => pure (some info, some e)
      | .ok _ => pure (some info, none)

/-- `executeOnDestContextNoBuiltinFunction` (`execution.go` 264-309). -/
def execDestNoBuiltin (ex : Executor χ A) (i : CallInput) : M χ A DestResult := do
  let i ← enterDest i
  M.deferred (bodyDest E ex i) (fun r =>
    match r with
    | none => do
      let _ ← finishDest E none
      M.panic
    | some (info, e) => do
      let out ← finishDest E e
      match e with
      | some e => pure ⟨out, info, some e⟩
      | none => pure ⟨out, info, if out.returnCode ≠ .ok then some .executionFailed else none⟩)

/-- `ExecuteOnDestContext` (`execution.go` 220-249). -/
def execDest (ex : Executor χ A) (i : CallInput) : M χ A DestResult := do
  M.modify (St.bcPush E)
  let first : Except Err (Option CallInput × Option VMOutput) ←
    if E.isBuiltin i.function then do
      match (← handleBuiltin E i) with
      | .error e => pure (.error e)
      | .ok (post, out) => pure (.ok (post, some out))
    else pure (.ok (some i, none))
  match first with
  | .error e => do
    M.modify (St.bcPopSet E)
    let out ← M.lift (outputOnError E e)
    pure ⟨out, none, some e⟩
  | .ok (some i, _) => do
    let r ← execDestNoBuiltin E ex i
    M.modify (if r.err.isSome then St.bcPopSet E else St.bcPopDiscard)
    pure r
  | .ok (none, out) => do
    M.modify St.bcPopDiscard
    pure ⟨out.getD {}, none, none⟩

/-- `finishExecuteOnSameContext` (`execution.go` 396-422). -/
def finishSame (err : Option Err) : M χ A Unit := do
  let s ← M.get
  if s.out.cur.returnCode ≠ .ok ∨ err.isSome then
    M.modify (fun s => St.bcPopSet E (St.rtPopSet
      { s with big := s.big.popSet, met := s.met.popSet, out := s.out.popSet }))
  else do
    let out ← M.lift (getVMOutput E)
    M.modify (fun s => St.rtPopSet (St.bcPopDiscard
      { s with met := s.met.popMerge, out := s.out.popDiscard, big := s.big.popDiscard }))
    restoreGas out.gasRemaining

/-- Pushing the contexts (`execution.go` 360-375). -/
def enterSame (i : CallInput) : M χ A CallInput := do
  M.modify (fun s => { s with big := s.big.push, out := s.out.push })
  let s ← M.get
  let i := copyTxHashes s i
  M.modify (fun s => (s.rtPush).rtInitFrom i)
  M.modify (fun s => { s with met := s.met.push })
  let vm ← meterInit i.vm
  M.modify (St.bcPush E)
  pure { i with vm := vm }

/-- The body of `ExecuteOnSameContext` (`execution.go` 382-393). -/
def bodySame (ex : Executor χ A) (i : CallInput) : M χ A (Option Err) := do
  match (← M.lift (transferValueOnly E i.recipient i.vm.caller i.vm.callValue false)) with
  | some e => pure (some e)
  | none => execute E ex i

/-- `ExecuteOnSameContext` (`execution.go` 352-394); the returned asynchronous information is never used. -/
def execSame (ex : Executor χ A) (i : CallInput) : M χ A (Option Err) := do
  if E.isBuiltin i.function then pure (some .builtinCallOnSameContextDisallowed)
  else do
    let i ← enterSame E i
    M.deferred (bodySame E ex i) (fun r =>
      match r with
      | none => do
        finishSame E none
        M.panic
      | some e => do
        finishSame E e
        pure e)

/-- Nested execution with recursion fuel. -/
def execN : Nat → Executor χ A
  | 0 => ⟨fun _ => M.oof, fun _ => M.oof⟩
  | n + 1 => ⟨execDest E (execN n), execSame E (execN n)⟩

end Arwen
