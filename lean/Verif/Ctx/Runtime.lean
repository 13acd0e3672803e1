import Verif.Ctx.Storage
/-
Model of `arwen/contexts/runtime.go`, `validator.go` and `reservedFunctions.go`.
-/
namespace Arwen
variable {χ A : Type} (E : Env χ A)

/-! ### State stack and instance stack -/

namespace St

/-- `IsWarmInstance` (`runtime.go` 265-271). -/
def isWarm (s : St χ A) : Bool :=
  match s.rt.instance_ with
  | none => false
  | some i => s.rt.warmInstance = some i

/-- `CleanWasmerInstance` (`runtime.go` 707-716). -/
def cleanInstance (s : St χ A) : St χ A :=
  match s.rt.instance_ with
  | none => s
  | some i =>
    if s.isWarm then s
    else { s.modInst i Inst.clean with rt := { s.rt with instance_ := none } }

/-- `ResetWarmInstance` (`runtime.go` 274-285). -/
def resetWarm (s : St χ A) : St χ A :=
  match s.rt.instance_ with
  | none => s
  | some i =>
    { s.modInst i Inst.clean with
      rt := { s.rt with instance_ := none, warmAddress := none, warmInstance := none } }

/-- `popInstance` (`runtime.go` 385-406). -/
def popInstance (s : St χ A) : St χ A :=
  match s.rt.instanceStack with
  | [] => s
  | prev :: rest =>
    let s := { s with rt := { s.rt with instanceStack := rest } }
    if prev = s.rt.instance_ then s
    else
      let s := s.cleanInstance
      { s with rt := { s.rt with instance_ := prev } }

/-- `PushState` and `pushInstance` (`runtime.go` 323-340, 379-381). -/
def rtPush (s : St χ A) : St χ A :=
  { s with rt := { s.rt with stack := s.rt.cur :: s.rt.stack, instanceStack := s.rt.instance_ :: s.rt.instanceStack } }

/-- `PopSetActiveState` (`runtime.go` 344-360). -/
def rtPopSet (s : St χ A) : St χ A :=
  match s.rt.stack with
  | [] => s
  | p :: rest => popInstance { s with rt := { s.rt with cur := p, stack := rest } }

/-- `PopDiscard` (`runtime.go` 363-371). -/
def rtPopDiscard (s : St χ A) : St χ A :=
  match s.rt.stack with
  | [] => s
  | _ :: rest => popInstance { s with rt := { s.rt with stack := rest } }

/-- `InitState` (`runtime.go` 81-94). -/
def rtInit (s : St χ A) : St χ A :=
  { s with rt := { s.rt with cur := {}, verifyCode := false } }

/-- `InitStateFromContractCallInput` (`runtime.go` 298-313). -/
def rtInitFrom (i : CallInput) (s : St χ A) : St χ A :=
  { s with rt := { s.rt with cur := { s.rt.cur with
      vmInput := i.vm, scAddress := i.recipient, callFunction := i.function,
      asyncContextInfo := { caller := i.vm.caller } } } }

/-- `IsContractOnTheStack` (`runtime.go` 720-727). -/
def onStack (s : St χ A) (a : Addr) : Bool := s.rt.stack.any (fun c => c.scAddress = a)

end St

/-! ### Validation of deployed code -/

/-- `isASCIIString` (`validator.go` 106-114). -/
def isAscii (name : Bytes) : Bool := name.all (fun b => b < 128)

/-- `IsReserved` (`reservedFunctions.go` 14-45). The active built-in functions are those of the container
(simplification: the set is fixed when the host is created). -/
def isReservedName (name : Bytes) : Bool := E.isBuiltin name || E.apiNames name || name = upgradeName

/-- `verifyValidFunctionName` (`validator.go` 83-103). -/
def verifyName (name : Bytes) : Option Err :=
  if name.length = 0 || name.length ≥ 256 || !isAscii name || isReservedName E name
  then some (.invalidFunctionName name) else none

/-- `verifyVoidFunction`, `getInputArity`, `getOutputArity` (`validator.go` 49-81). -/
def verifyVoid (m : WasmModule A) (name : Bytes) : Option Err :=
  match m.signature name with
  | none => some (.funcNotFoundNamed name)
  | some (i, o) => if i = 0 ∧ o = 0 then none else some (.functionNonvoidSignature name)

/-- `verifyFunctions` (`validator.go` 33-47); the map of exports is visited in list order. -/
def verifyFunctions (m : WasmModule A) : List Bytes → Option Err
  | [] => none
  | n :: rest =>
    match verifyName E n with
    | some e => some e
    | none =>
      match verifyVoid m n with
      | some e => some e
      | none => verifyFunctions m rest

/-- Names of the imports that make a contract invalid before the ESDT functions are enabled (`runtime.go` 610-645):
transferESDTExecute, transferESDTNFTExecute, transferValueExecute, getESDTBalance, getESDTTokenData, getESDTTokenType,
getESDTTokenNonce, getCurrentESDTNFTNonce, getESDTNFTNameLength, getESDTNFTAttributeLength, getESDTNFTURILength,
bigIntGetESDTExternalBalance. -/
def esdtImports : List Bytes := [
  [116, 114, 97, 110, 115, 102, 101, 114, 69, 83, 68, 84, 69, 120, 101, 99, 117, 116, 101],
  [116, 114, 97, 110, 115, 102, 101, 114, 69, 83, 68, 84, 78, 70, 84, 69, 120, 101, 99, 117, 116, 101],
  [116, 114, 97, 110, 115, 102, 101, 114, 86, 97, 108, 117, 101, 69, 120, 101, 99, 117, 116, 101],
  [103, 101, 116, 69, 83, 68, 84, 66, 97, 108, 97, 110, 99, 101],
  [103, 101, 116, 69, 83, 68, 84, 84, 111, 107, 101, 110, 68, 97, 116, 97],
  [103, 101, 116, 69, 83, 68, 84, 84, 111, 107, 101, 110, 84, 121, 112, 101],
  [103, 101, 116, 69, 83, 68, 84, 84, 111, 107, 101, 110, 78, 111, 110, 99, 101],
  [103, 101, 116, 67, 117, 114, 114, 101, 110, 116, 69, 83, 68, 84, 78, 70, 84, 78, 111, 110, 99, 101],
  [103, 101, 116, 69, 83, 68, 84, 78, 70, 84, 78, 97, 109, 101, 76, 101, 110, 103, 116, 104],
  [103, 101, 116, 69, 83, 68, 84, 78, 70, 84, 65, 116, 116, 114, 105, 98, 117, 116, 101, 76, 101, 110, 103, 116, 104],
  [103, 101, 116, 69, 83, 68, 84, 78, 70, 84, 85, 82, 73, 76, 101, 110, 103, 116, 104],
  [98, 105, 103, 73, 110, 116, 71, 101, 116, 69, 83, 68, 84, 69, 120, 116, 101, 114, 110, 97, 108, 66, 97, 108, 97, 110, 99, 101]]

/-- The checks of `VerifyContractCode` (`runtime.go` 582-600, `verifyMemoryDeclaration`, `checkBackwardCompatibility`). -/
def verifyModule (esdtEnabled : Bool) (m : WasmModule A) : Option Err :=
  if !m.hasMemory then some .memoryDeclarationMissing
  else
    match verifyFunctions E m (m.exports.map Prod.fst) with
    | some e => some e
    | none =>
      if !esdtEnabled && esdtImports.any m.imports then some .contractInvalid else none

/-- `VerifyContractCode` (`runtime.go` 575-603). -/
def verifyContractCode : M χ A (Option Err) := do
  let s ← M.get
  if !s.rt.verifyCode then pure none
  else do
    M.modify (fun s => { s with rt := { s.rt with verifyCode := false } })
    match s.rt.instance_ with
    | none => M.panic
    | some i => pure (verifyModule E s.flags.esdt (s.insts i).mod)

/-! ### Starting an instance -/

/-- allocate an instance for a module and make it current -/
def newInstance (m : WasmModule A) (gasLimit : UInt64) (newCode : Bool) (s : St χ A) : St χ A :=
  { s with
    insts := fun j => if j = s.nextInst then
      { mod := m, points := 0, limit := gasLimit, bp := .none, mem := m.initMem, destroyed := 0,
        addr := s.rt.cur.scAddress, newCode := newCode } else s.insts j
    nextInst := s.nextInst + 1
    rt := { s.rt with instance_ := some s.nextInst } }

/-- `setWarmInstanceWhenNeeded` (`runtime.go` 104-119). -/
def setWarm (gasLimit : UInt64) : M χ A Bool := fun s =>
  if E.useWarm && s.rt.warmAddress = some s.rt.cur.scAddress then
    match s.rt.warmInstance with
    | none => (.panic, { s with rt := { s.rt with instance_ := none } })
    | some i =>
      (.ok true, { s.modInst i (fun x => { x with points := 0, limit := gasLimit, bp := .none }) with
        rt := { s.rt with instance_ := some i } })
  else (.ok false, s)

/-- `makeInstanceFromCompiledCode` (`runtime.go` 144-182). -/
def fromCompiled (codeHash : Bytes) (gasLimit : UInt64) (newCode : Bool) (s : St χ A) : Bool × St χ A :=
  if !s.flags.aot then (false, s)
  else if newCode || codeHash.length = 0 then (false, s)
  else
    match E.hook.compiledCode s.world codeHash with
    | none => (false, s)
    | some cc =>
      match E.wasm.fromCompiled cc with
      | .error _ => (false, s)
      | .ok m =>
        let s := newInstance m gasLimit newCode s
        (true, { s with rt := { s.rt with verifyCode := false } })

/-- `makeInstanceFromContractByteCode` (`runtime.go` 184-234) with `saveCompiledCode` (253-262); the compiled form of
an instance is a function of its bytecode. -/
def fromByteCode (code codeHash : Bytes) (gasLimit : UInt64) (newCode : Bool) : M χ A (Option Err) := do
  match E.wasm.compile code with
  | .error e => do
    M.modify (fun s => { s with rt := { s.rt with instance_ := none } })
    pure (some e)
  | .ok m => do
    M.modify (newInstance m gasLimit newCode)
    let h : Except Err Bytes := if newCode || codeHash.length = 0 then E.crypto.sha256 code else .ok codeHash
    match h with
    | .error e => do
      M.modify St.cleanInstance
      pure (some e)
    | .ok h => do
      match E.wasm.cacheOf code with
      | .error _ => pure ()
      | .ok cc => M.modify (fun s => { s with world := E.hook.saveCompiled s.world h cc })
      let err ← if newCode then verifyContractCode E else pure none
      match err with
      | some e => do
        M.modify St.cleanInstance
        pure (some e)
      | none => do
        if E.useWarm then
          M.modify (fun s => { s with rt := { s.rt with warmAddress := some s.rt.cur.scAddress, warmInstance := s.rt.instance_ } })
        else pure ()
        pure none

/-- `StartWasmerInstance` (`runtime.go` 122-142). -/
def startInstance (code : Bytes) (gasLimit : UInt64) (newCode : Bool) : M χ A (Option Err) := do
  let s ← M.get
  if s.rt.instanceStack.length ≥ E.maxInstances then do
    M.modify (fun s => { s with rt := { s.rt with instance_ := none } })
    pure (some .maxInstancesReached)
  else do
    let warm ← setWarm E gasLimit
    if warm then pure none
    else do
      let s ← M.get
      let codeHash := getCodeHash E s s.rt.cur.scAddress
      let used ← M.lift (fromCompiled E codeHash gasLimit newCode)
      if used then pure none
      else fromByteCode E code codeHash gasLimit newCode

/-- `GetSCCode` (`runtime.go` 237-246). -/
def getSCCode (s : St χ A) : Except Err Bytes × St χ A :=
  let (r, s) := getCode E s.rt.cur.scAddress s
  match r with
  | .error e => (.error e, s)
  | .ok code => (.ok code, { s with rt := { s.rt with codeSize := UInt64.ofNat code.length } })

/-- the current instance; using a nil instance panics -/
def curInst : M χ A (Inst A) := fun s =>
  match s.rt.instance_ with
  | none => (.panic, s)
  | some i => (.ok (s.insts i), s)

/-- `GetFunctionToCall` (`runtime.go` 730-744). -/
def getFunctionToCall : M χ A (Except Err (Prog A)) := do
  let i ← curInst
  let s ← M.get
  match i.mod.fn s.rt.cur.callFunction with
  | some f => pure (.ok f)
  | none =>
    if s.rt.cur.callFunction = callbackName then pure (.error .nilCallbackFunction) else pure (.error .funcNotFound)

/-- `GetInitFunction` (`runtime.go` 747-754). -/
def getInitFunction : M χ A (Option (Prog A)) := do
  let i ← curInst
  pure (i.mod.fn initName)

/-- `HasCallbackMethod` (`runtime.go` 830-833). -/
def hasCallbackMethod : M χ A Bool := do
  let i ← curInst
  pure (i.mod.fn callbackName).isSome

/-! ### Failing -/

/-- `FailExecution` (`runtime.go` 532-552). -/
def failExecution (e : Option Err) : M χ A Unit := do
  let msg := match e with | some e => E.errText e | none => executionFailedText
  M.modify (fun s => { s with out := (s.out.setReturnCode .executionFailed).setReturnMessage msg })
  setBreakpoint .executionFailed

/-- `SignalUserError` (`runtime.go` 555-561). -/
def signalUserError (msg : Bytes) : M χ A Unit := do
  M.modify (fun s => { s with out := (s.out.setReturnCode .userError).setReturnMessage msg })
  setBreakpoint .signalError

/-- `WithFault` with a non-nil error and failing enabled (`arwen/helpers.go` 179-198). -/
def withFault (e : Err) : M χ A Unit := do
  let s ← M.get
  useGas s.gasLeft
  failExecution E (some e)

/-! ### Asynchronous calls -/

/-- `SetAsyncCallInfo` (`runtime.go` 792-794). -/
def St.setAsyncCallInfo (s : St χ A) (i : AsyncCallInfo) : St χ A :=
  { s with rt := { s.rt with cur := { s.rt.cur with asyncCallInfo := some i } } }

/-- `ExecuteAsyncCall` (`runtime.go` 757-789). -/
def executeAsyncCall (addr : Addr) (data value : Bytes) : M χ A (Option Err) := do
  match (← useGasForAsyncStep) with
  | some e => pure (some e)
  | none => do
    let hasCb ← hasCallbackMethod
    let s ← M.get
    let locked (lock : UInt64) : M χ A (Option Err) := do
      M.modify (fun s => s.setAsyncCallInfo
        { destination := addr, data := data, gasLimit := s.gasLeft, gasLocked := lock, valueBytes := value })
      setBreakpoint .asyncCall
      pure none
    if hasCb || !s.flags.dynGasLock then do
      let lock := s.computeGasLocked
      match (← useGasBounded lock) with
      | some e => pure (some e)
      | none => locked lock
    else locked 0

/-- `AddAsyncContextCall` (`runtime.go` 797-811). -/
def addAsyncContextCall (id : Bytes) (c : AsyncGeneratedCall) (s : St χ A) : St χ A :=
  let info := s.rt.cur.asyncContextInfo
  let ctx := (info.contexts.get? id).getD {}
  { s with rt := { s.rt with cur := { s.rt.cur with asyncContextInfo :=
    { info with contexts := info.contexts.insert id { ctx with calls := ctx.calls ++ [c] } } } } }

/-- `GetAsyncContext` and the assignment of its callback (`runtime.go` 819-826, `elrondei.go` setAsyncContextCallback). -/
def setAsyncContextCallback (id cb : Bytes) (s : St χ A) : Option Err × St χ A :=
  let info := s.rt.cur.asyncContextInfo
  match info.contexts.get? id with
  | none => (some .asyncContextDoesNotExist, s)
  | some ctx => (none, { s with rt := { s.rt with cur := { s.rt.cur with asyncContextInfo :=
      { info with contexts := info.contexts.insert id { ctx with callback := cb } } } } })

/-! ### Memory -/

/-- `MemLoad` on a memory (`runtime.go` 849-873). -/
def memLoadPure (mem : Bytes) (offset length : Int32) : Except Err Bytes :=
  let memLen := UInt32.ofNat mem.length
  let reqEnd := addI32 offset length
  if offset < 0 ∨ offset.toUInt32 > memLen then .error .memLoadBadBounds
  else if length < 0 then .error .memLoadNegativeLength
  else
    let o := offset.toNatClampNeg
    let n := length.toNatClampNeg
    let src := if reqEnd.toUInt32 > memLen then mem.drop o else (mem.take reqEnd.toNatClampNeg).drop o
    let part := src.take n
    .ok (part ++ List.replicate (n - part.length) 0)

/-- `MemLoad` (`runtime.go` 844-874) on the current instance; reads the state only. A nil instance panics. -/
def memLoad (s : St χ A) (offset length : Int32) : Res (Except Err Bytes) :=
  if length = 0 then .ok (.ok [])
  else match s.rt.instance_ with
    | none => .panic
    | some i => .ok (memLoadPure (s.insts i).mem offset length)

/-- size of a WASM page -/
def wasmPage : Nat := 65536

/-- bytes written over a memory at an offset inside it -/
def overwrite (mem : Bytes) (o : Nat) (data : Bytes) : Bytes :=
  mem.take o ++ data ++ mem.drop (o + data.length)

/-- `MemStore` on a memory (`runtime.go` 904-931): error and the memory after. A negative slice length panics (`none`). -/
def memStorePure (growOk : Nat → Bool) (mem : Bytes) (offset : Int32) (data : Bytes) : Option (Option Err × Bytes) :=
  let reqEnd := addI32 offset (Int32.ofNat data.length)
  if offset < 0 then some (some .badLowerBounds, mem)
  else
    let needPage := reqEnd.toUInt32 > UInt32.ofNat mem.length
    if needPage && !growOk mem.length then some (some (.wasm 0), mem)
    else
      let mem := if needPage then mem ++ List.replicate wasmPage 0 else mem
      if reqEnd.toUInt32 > UInt32.ofNat mem.length then some (some .badUpperBounds, mem)
      else if reqEnd < offset then none
      else some (none, overwrite mem offset.toNatClampNeg
        (data.take (reqEnd.toNatClampNeg - offset.toNatClampNeg)))

/-- `MemStore` (`runtime.go` 898-932). -/
def memStore (offset : Int32) (data : Bytes) : M χ A (Option Err) := fun s =>
  if Int32.ofNat data.length = 0 then (.ok none, s)
  else match s.rt.instance_ with
    | none => (.panic, s)
    | some i =>
      match memStorePure E.wasm.growOk (s.insts i).mem offset data with
      | none => (.panic, s)
      | some (e, mem') => (.ok e, s.modInst i (fun x => { x with mem := mem' }))

end Arwen
