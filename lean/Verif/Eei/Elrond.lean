import Verif.Eei.Base
/-
Model of `arwen/elrondapi/elrondei.go`.
-/
namespace Arwen
namespace Eei
variable {χ A : Type} (E : Env χ A)

/-! ### Addresses, balances, blocks -/

/-- `elrondei.go` 468-475 -/
def getGasLeft : P χ A := gasK .getGasLeft <| .ask fun s => .pure s.gasLeft.toInt64
/-- `elrondei.go` 478-490 -/
def getSCAddress (off : Int32) : P χ A := gasK .getSCAddress <| .ask fun s => storeEndK off s.rt.cur.scAddress
/-- `elrondei.go` 493-510 -/
def getOwnerAddress (off : Int32) : P χ A := gasK .getOwnerAddress <| .ask fun s =>
  match getOwner E s with
  | .error e => faultK e 0
  | .ok o => storeEndK off o
/-- `elrondei.go` 513-527 -/
def getShardOfAddress (off : Int32) : P χ A := gasK .getShardOfAddress <| loadK off 32 0 fun a => .ask fun s =>
  .pure (E.hook.shardOf s.world a).toInt32.toInt64
/-- `elrondei.go` 530-546 -/
def isSmartContract (off : Int32) : P χ A := gasK .isSmartContract <| loadK off 32 0 fun a => .ask fun s =>
  .pure (boolRes (E.hook.isSmartContract s.world a))
/-- `elrondei.go` 549-561 -/
def signalError (off len : Int32) : P χ A := gasK .signalError <| loadK off len 0 fun m =>
  .op (.signalUserError m) fun _ => .pure 0
/-- `elrondei.go` 564-583 -/
def getExternalBalance (addrOff off : Int32) : P χ A := gasK .getExternalBalance <| loadK addrOff 32 0 fun a =>
  .op (.getBalance a) fun b => storeEndK off (absBytes b)
/-- `elrondei.go` 586-601 -/
def getBlockHash (nonce : Int64) (off : Int32) : P χ A := gasK .getBlockHash <| .ask fun s =>
  match blockHash E s nonce with | none => .panic | some h => storeK off h 1 (.pure 0)

/-- `getESDTDataFromBlockchainHook` (`elrondei.go` 609-639) with the fault of its callers -/
def esdtDataK (addrOff tokOff tokLen : Int32) (nonce : Int64) (k : EsdtToken → P χ A) : P χ A :=
  gasK .getExternalBalance <| loadK addrOff 32 0 fun a => loadK tokOff tokLen 0 fun t => .ask fun s =>
    match E.hook.esdtToken s.world a t nonce.toUInt64 with
    | .error e => faultK e 0
    | .ok d => k d
/-- `elrondei.go` 642-661 -/
def getESDTBalance (addrOff tokOff tokLen : Int32) (nonce : Int64) (off : Int32) : P χ A :=
  esdtDataK E addrOff tokOff tokLen nonce fun d => storeK off (absBytes d.value) 0 (.pure (lenRes (absBytes d.value)))
/-- `elrondei.go` 664-681 -/
def getESDTNFTNameLength (addrOff tokOff tokLen : Int32) (nonce : Int64) : P χ A :=
  esdtDataK E addrOff tokOff tokLen nonce fun d => .pure (match d.tokenMeta with | none => 0 | some m => lenRes m.name)
/-- `elrondei.go` 684-701 -/
def getESDTNFTAttributeLength (addrOff tokOff tokLen : Int32) (nonce : Int64) : P χ A :=
  esdtDataK E addrOff tokOff tokLen nonce fun d => .pure (match d.tokenMeta with | none => 0 | some m => lenRes m.attributes)
/-- `elrondei.go` 704-724 -/
def getESDTNFTURILength (addrOff tokOff tokLen : Int32) (nonce : Int64) : P χ A :=
  esdtDataK E addrOff tokOff tokLen nonce fun d => .pure (match d.tokenMeta with
    | none => 0
    | some m => match m.uris with | [] => 0 | u :: _ => lenRes u)

/-- offsets and handles of the results of `getESDTTokenData` -/
structure EsdtDest where
  value : Int32
  properties : Int32
  hash : Int32
  name : Int32
  attributes : Int32
  creator : Int32
  royalties : Int32
  uris : Int32
  deriving DecidableEq, Repr

/-- `elrondei.go` 727-786 -/
def getESDTTokenData (addrOff tokOff tokLen : Int32) (nonce : Int64) (r : EsdtDest) : P χ A :=
  esdtDataK E addrOff tokOff tokLen nonce fun d =>
  .op (.bigGet r.value) fun _ => .op (.bigSet r.value d.value) fun _ =>
  storeK r.properties d.properties 0 <|
  let done : P χ A := .pure (lenRes (absBytes d.value))
  match d.tokenMeta with
  | none => done
  | some m =>
    storeK r.hash m.hash 0 <| storeK r.name m.name 0 <| storeK r.attributes m.attributes 0 <|
    storeK r.creator m.creator 0 <|
    .op (.bigGet r.royalties) fun _ => .op (.bigSet r.royalties m.royalties.toNat) fun _ =>
    match m.uris with
    | [] => done
    | u :: _ => storeK r.uris u 0 done

/-! ### Transfers -/

/-- `elrondei.go` 789-827 -/
def transferValue (destOff valueOff dataOff len : Int32) : P χ A :=
  gasK .transferValue <| .ask fun s => loadK destOff 32 1 fun dest => loadK valueOff 32 1 fun v =>
  persistK (len64 len) <| loadK dataOff len 1 fun data =>
  if isBuiltInCall E data then .pure 1
  else .op (.transfer dest s.rt.cur.scAddress 0 0 (bytesToNat v) data .directCall) fun e => orFaultK e 1 (.pure 0)

/-- `elrondei.go` 936-1070. The gas limit of a transfer to another shard is passed on unbounded. -/
def transferValueExecute (destOff valueOff : Int32) (gasLimit : Int64) (fOff fLen num lenOff dataOff : Int32) : P χ A :=
  gasK .transferValue <| extractK destOff (some valueOff) fOff fLen num lenOff dataOff fun a =>
  gasK .transferValue <| .ask fun s =>
  let sender := s.rt.cur.scAddress
  let input := callInput s sender a.value gasLimit a
  if E.isBuiltin input.function then .pure 1
  else if sameShard E s sender a.dest && E.hook.isSmartContract s.world a.dest then
    .op (.executeOnDest input) fun e => .pure (match e with | some _ => 1 | none => 0)
  else
    .op (.transfer a.dest sender gasLimit.toUInt64 0 a.value (buildCallData a.function a.args) .directCall) fun e =>
      orFaultK e 1 (.pure 0)

/-- deprecated (`elrondei.go` 1073-1094) -/
def transferESDTOld (len : Int32) : P χ A := gasK .transferValue <| persistK (len64 len) (.pure 1)

/-- `elrondei.go` 1115-1264 (and 1097-1112 with nonce 0) -/
def transferESDTNFTExecute (destOff tokOff tokLen valueOff : Int32) (nonce gasLimit : Int64)
    (fOff fLen num lenOff dataOff : Int32) : P χ A :=
  loadK tokOff tokLen 1 fun token => extractK destOff (some valueOff) fOff fLen num lenOff dataOff fun a =>
  copyK (len64 a.actualLen) <| gasK .transferValue <| .ask fun s =>
  let sender := s.rt.cur.scAddress
  let base := callInput s sender 0 gasLimit a
  let transfers : List EsdtTransfer :=
    [{ value := a.value, name := token, tokenType := if nonce > 0 then 1 else 0, nonce := nonce.toUInt64 }]
  let input : CallInput := { base with vm := { base.vm with esdt := transfers } }
  let snapshot := E.hook.snapshot s.world
  .op (.transferESDT a.dest sender token nonce.toUInt64 a.value (some input)) fun r =>
  match r with
  | .error e => faultK e 1
  | .ok gas => .ask fun s =>
    if sameShard E s sender a.dest && E.hook.isSmartContract s.world a.dest then
      .op (.executeOnDest { input with vm := { input.vm with gasProvided := gas } }) fun e =>
      match e with
      | some _ => .op (.revertSnapshot snapshot) fun _ => .pure 1
      | none => .pure 0
    else .pure 0

/-! ### Asynchronous calls -/

/-- `elrondei.go` 1267-1326 -/
def createAsyncCall (idOff idLen destOff valueOff dataOff len sOff sLen eOff eLen : Int32) (gas : Int64) : P χ A :=
  loadK idOff idLen 0 fun id => loadK destOff 32 0 fun dest => loadK valueOff 32 0 fun v =>
  loadK dataOff len 0 fun data => loadK sOff sLen 0 fun sf => loadK eOff eLen 0 fun ef =>
  .op (.addAsyncContextCall id { destination := dest, data := data, valueBytes := v, successCallback := sf,
                                 errorCallback := ef, providedGas := gas.toUInt64 }) fun _ => .pure 0

/-- `elrondei.go` 1329-1358 -/
def setAsyncContextCallback (idOff idLen cbOff cbLen : Int32) : P χ A :=
  loadK idOff idLen (-1) fun id => .ask fun s =>
  match s.rt.cur.asyncContextInfo.contexts.get? id with
  | none => faultK .asyncContextDoesNotExist (-1)
  | some _ => loadK cbOff cbLen (-1) fun cb => .op (.setAsyncContextCallback id cb) fun _ => .pure 0

/-- the helper `upgradeContract` (`elrondei.go` 1506-1540); the error of `ExecuteAsyncCall` is only logged -/
def upgradeAsyncK (dest : Addr) (code metadata value : Bytes) (args : List Bytes) (gasLimit : Int64) : P χ A :=
  .ask fun s =>
  let minCost := addU64 (mulU64 2 (s.met.sched.api .asyncCallStep)) (s.met.sched.api .asyncCallbackGasLock)
  if gasLimit.toUInt64 < minCost then .op .outOfGas fun _ => .pure 0
  else .op (.executeAsyncCall dest (buildCallData upgradeName (code :: metadata :: args)) value) fun _ => .pure 0

/-- `elrondei.go` 1361-1419 -/
def upgradeContract (destOff : Int32) (gasLimit : Int64) (valueOff codeOff metaOff len num lenOff dataOff : Int32) : P χ A :=
  gasK .createContract <| loadK valueOff 32 0 fun v => loadK codeOff len 0 fun code => loadK metaOff 2 0 fun md =>
  argsGasK num lenOff dataOff 0 fun args => loadK destOff 32 0 fun dest => copyK (len64 len) <|
  upgradeAsyncK dest code md v args gasLimit

/-- `elrondei.go` 1422-1504 -/
def upgradeFromSourceContract (destOff : Int32) (gasLimit : Int64) (valueOff srcOff metaOff num lenOff dataOff : Int32) :
    P χ A :=
  gasK .createContract <| loadK valueOff 32 0 fun v => loadK srcOff 32 0 fun src => loadK metaOff 2 0 fun md =>
  argsGasK num lenOff dataOff 0 fun args => loadK destOff 32 0 fun dest =>
  .op (.getCode src) fun r =>
  match r with
  | .error e => faultK e 0
  | .ok code => upgradeAsyncK dest code md v args gasLimit

/-- `elrondei.go` 1543-1578 -/
def asyncCall (destOff valueOff dataOff len : Int32) : P χ A :=
  gasK .asyncCallStep <| loadK destOff 32 0 fun dest => loadK valueOff 32 0 fun v => copyK (len64 len) <|
  loadK dataOff len 0 fun data => .op (.executeAsyncCall dest data v) fun e =>
  match e with
  | none => .pure 0
  | some e => if e.isA .notEnoughGas then .op .outOfGas fun _ => .pure 0 else faultK e 0

/-! ### Arguments -/

/-- `elrondei.go` 1581-1594 -/
def getArgumentLength (id : Int32) : P χ A := gasK .getArgument <| .ask fun s =>
  if id < 0 ∨ Int32.ofNat s.rt.cur.vmInput.args.length ≤ id then .pure (-1)
  else match argAt s.rt.cur.vmInput.args id with | none => .panic | some a => .pure (lenRes a)
/-- `elrondei.go` 1597-1615 -/
def getArgument (id off : Int32) : P χ A := gasK .getArgument <| .ask fun s =>
  if id < 0 ∨ Int32.ofNat s.rt.cur.vmInput.args.length ≤ id then .pure (-1)
  else match argAt s.rt.cur.vmInput.args id with | none => .panic | some a => storeK off a (-1) (.pure (lenRes a))
/-- `elrondei.go` 1618-1632 -/
def getFunction (off : Int32) : P χ A := gasK .getFunction <| .ask fun s =>
  storeK off s.rt.cur.callFunction (-1) (.pure (lenRes s.rt.cur.callFunction))
/-- `elrondei.go` 1635-1644 -/
def getNumArguments : P χ A := gasK .getNumArguments <| .ask fun s =>
  .pure (Int32.ofNat s.rt.cur.vmInput.args.length).toInt64

/-! ### Storage -/

/-- answer of a storage write -/
def statusK (r : StorageStatus × Option Err) : P χ A := orFaultK r.2 (-1) (.pure (statusRes r.1))

/-- `elrondei.go` 1647-1671 -/
def storageStore (keyOff keyLen dataOff dataLen : Int32) : P χ A :=
  gasK .storageStore <| loadK keyOff keyLen (-1) fun key => loadK dataOff dataLen (-1) fun data =>
  .op (.setStorage key data) statusK
/-- `elrondei.go` 1674-1690 -/
def storageLoadLength (keyOff keyLen : Int32) : P χ A :=
  gasK .storageLoad <| loadK keyOff keyLen (-1) fun key => .op (.getStorageUnmetered key) fun (d : Bytes) => .pure (lenRes d)
/-- `elrondei.go` 1693-1719 -/
def storageLoadFromAddress (addrOff keyOff keyLen dataOff : Int32) : P χ A :=
  gasK .storageLoad <| loadK keyOff keyLen (-1) fun key => loadK addrOff 32 (-1) fun a =>
  .op (.getStorageFromAddress a key) fun (d : Bytes) => storeK dataOff d (-1) (.pure (lenRes d))
/-- `elrondei.go` 1722-1743 -/
def storageLoad (keyOff keyLen dataOff : Int32) : P χ A :=
  gasK .storageLoad <| loadK keyOff keyLen (-1) fun key =>
  .op (.getStorage key) fun (d : Bytes) => storeK dataOff d (-1) (.pure (lenRes d))
/-- `elrondei.go` 1746-1766 -/
def setStorageLock (keyOff keyLen : Int32) (timestamp : Int64) : P χ A :=
  gasK .int64StorageStore <| loadK keyOff keyLen (-1) fun key =>
  .op (.setTimeLock key (absBytes timestamp.toInt)) statusK
/-- `elrondei.go` 1769-1787, handing the result to the continuation -/
def getStorageLockK (keyOff keyLen : Int32) (k : Int64 → P χ A) : P χ A :=
  gasK .storageLoad <| loadEK keyOff keyLen fun r =>
  match r with
  | .error e => .ask fun s => .op (.useGas s.gasLeft) fun _ => .op (.failExecution e) fun _ => k (-1)
  | .ok key => .op (.getStorage (customStorageKey timelockPrefix key)) fun (d : Bytes) => k (Int64.ofInt (bytesToNat d))
/-- `elrondei.go` 1769-1787 -/
def getStorageLock (keyOff keyLen : Int32) : P χ A := getStorageLockK keyOff keyLen .pure
/-- `elrondei.go` 1790-1802 -/
def isStorageLocked (keyOff keyLen : Int32) : P χ A := getStorageLockK keyOff keyLen fun lock =>
  if lock < 0 then .pure (-1)
  else gasK .getBlockTimeStamp <| .ask fun s =>
    .pure (if lock ≤ (E.hook.currentTimeStamp s.world).toInt64 then 0 else 1)

/-! ### Call value -/

/-- `elrondei.go` 1810-1823 -/
def getCaller (off : Int32) : P χ A := gasK .getCaller <| .ask fun s => storeEndK off s.rt.cur.vmInput.caller
/-- `elrondei.go` 1826-1844 -/
def checkNoPayment : P χ A := gasK .getCallValue <| .ask fun s =>
  if s.rt.cur.vmInput.callValue > 0 then faultK .nonPayableFunctionEgld 0
  else if s.rt.cur.vmInput.esdt.length > 0 then faultK .nonPayableFunctionEsdt 0
  else .pure 0
/-- `elrondei.go` 1847-1863 -/
def getCallValue (off : Int32) : P χ A := gasK .getCallValue <| .ask fun s =>
  let v := padBytesLeft (absBytes s.rt.cur.vmInput.callValue) 32
  storeK off v (-1) (.pure (lenRes v))
/-- `elrondei.go` 1866-1887 -/
def getESDTValue (off : Int32) : P χ A := gasK .getCallValue <| .ask fun s =>
  let t := firstEsdt s
  let v := if t.value > 0 then padBytesLeft (absBytes t.value) 32 else []
  storeK off v (-1) (.pure (lenRes v))
/-- `elrondei.go` 1890-1906 -/
def getESDTTokenName (off : Int32) : P χ A := gasK .getCallValue <| .ask fun s =>
  storeK off (firstEsdt s).name (-1) (.pure (lenRes (firstEsdt s).name))
/-- `elrondei.go` 1909-1918 -/
def getESDTTokenNonce : P χ A := gasK .getCallValue <| .ask fun s => .pure (firstEsdt s).nonce.toInt64
/-- `elrondei.go` 1921-1944: memory errors answer 0 and do not fail the execution -/
def getCurrentESDTNFTNonce (addrOff tokOff tokLen : Int32) : P χ A :=
  gasK .storageLoad <| loadEK addrOff 32 fun ra =>
  match ra with
  | .error _ => .pure 0
  | .ok a => loadEK tokOff tokLen fun rt =>
    match rt with
    | .error _ => .pure 0
    | .ok t => .op (.getStorageFromAddress a (E.nftNoncePrefix ++ t)) fun (d : Bytes) =>
      .pure (UInt64.ofNat (bytesToNat d)).toInt64
/-- `elrondei.go` 1947-1956 -/
def getESDTTokenType : P χ A := gasK .getCallValue <| .ask fun s => .pure (firstEsdt s).tokenType.toInt32.toInt64
/-- `elrondei.go` 1959-1988: the token name is copied into an empty slice, so it is always empty -/
def getCallValueTokenName (valueOff nameOff : Int32) : P χ A := gasK .getCallValue <| .ask fun s =>
  let t := firstEsdt s
  let v := padBytesLeft (absBytes (if t.name.length > 0 then t.value else s.rt.cur.vmInput.callValue)) 32
  storeK nameOff [] (-1) <| storeK valueOff v (-1) (.pure 0)

/-! ### Logs and results -/

/-- the topics of `writeLog` (`elrondei.go` 2012-2017): `n` topics of 32 bytes; the offsets wrap -/
def topicsK : Nat → Int32 → (List Bytes → P χ A) → P χ A
  | 0, _, k => k []
  | n + 1, off, k => loadK off 32 0 fun t => topicsK n (off + 32) fun ts => k (t :: ts)

/-- deprecated (`elrondei.go` 1991-2020) -/
def writeLog (dataOff dataLen topicOff num : Int32) : P χ A :=
  useK (fun s => addU64 (s.met.sched.api .log) (mulU64 s.met.sched.persistPerByte (len64 (num * 32 + dataLen)))) <|
  loadK dataOff dataLen 0 fun data =>
  if num < 0 then faultK errNegativeCount 0
  else topicsK num.toNatClampNeg topicOff fun ts => .ask fun s =>
    .op (.writeLog s.rt.cur.scAddress ts data) fun _ => .pure 0

/-- `elrondei.go` 2023-2059 -/
def writeEventLog (num lenOff topicOff dataOff dataLen : Int32) : P χ A :=
  argsEK num lenOff topicOff fun r =>
  match r with
  | .error e => faultK e 0
  | .ok (ts, n) => loadK dataOff dataLen 0 fun data =>
    useK (fun s => addU64 (s.met.sched.api .log) (mulU64 s.met.sched.dataCopyPerByte (len64 (n + dataLen)))) <| .ask fun s =>
    .op (.writeLog s.rt.cur.scAddress ts data) fun _ => .pure 0

/-- `elrondei.go` 2192-2208 -/
def finish (off len : Int32) : P χ A :=
  useK (fun s => addU64 (s.met.sched.api .finish) (mulU64 s.met.sched.persistPerByte (len64 len))) <|
  loadK off len 0 fun d => .op (.finish d) fun _ => .pure 0

/-! ### Block information (`elrondei.go` 2062-2189) -/

def blockTimestamp : P χ A := gasK .getBlockTimeStamp <| .ask fun s => .pure (E.hook.currentTimeStamp s.world).toInt64
def blockNonce : P χ A := gasK .getBlockNonce <| .ask fun s => .pure (E.hook.currentNonce s.world).toInt64
def blockRound : P χ A := gasK .getBlockRound <| .ask fun s => .pure (E.hook.currentRound s.world).toInt64
def blockEpoch : P χ A := gasK .getBlockEpoch <| .ask fun s => .pure (E.hook.currentEpoch s.world).toUInt64.toInt64
def blockRandomSeed (off : Int32) : P χ A := gasK .getBlockRandomSeed <| .ask fun s =>
  match E.hook.currentRandomSeed s.world with | none => .panic | some d => storeEndK off d
def stateRootHash (off : Int32) : P χ A := gasK .getStateRootHash <| .ask fun s => storeEndK off (E.hook.stateRootHash s.world)
def prevBlockTimestamp : P χ A := gasK .getBlockTimeStamp <| .ask fun s => .pure (E.hook.lastTimeStamp s.world).toInt64
def prevBlockNonce : P χ A := gasK .getBlockNonce <| .ask fun s => .pure (E.hook.lastNonce s.world).toInt64
def prevBlockRound : P χ A := gasK .getBlockRound <| .ask fun s => .pure (E.hook.lastRound s.world).toInt64
def prevBlockEpoch : P χ A := gasK .getBlockEpoch <| .ask fun s => .pure (E.hook.lastEpoch s.world).toUInt64.toInt64
def prevBlockRandomSeed (off : Int32) : P χ A := gasK .getBlockRandomSeed <| .ask fun s =>
  match E.hook.lastRandomSeed s.world with | none => .panic | some d => storeEndK off d
/-- `elrondei.go` 2928-2937 -/
def originalTxHash (off : Int32) : P χ A := gasK .getBlockHash <| .ask fun s => storeEndK off s.rt.cur.vmInput.originalTxHash

/-! ### Calling other contracts -/

/-- The four ways to call another contract synchronously (`elrondei.go` 2211-2693): on the callee's context, the same on
behalf of the caller, on the same context (with value, or delegating the call value), read-only. -/
inductive ExecKind
  | dest | destByCaller | same | delegate | readOnly
  deriving DecidableEq, Repr

/-- price of the call -/
def ExecKind.cost : ExecKind → ApiCost
  | dest => .executeOnDestContext | destByCaller => .executeOnDestContext | same => .executeOnSameContext
  | delegate => .delegateExecution | readOnly => .executeReadOnly

/-- the command of the call -/
def ExecKind.cmd (k : ExecKind) (i : CallInput) : Cmd :=
  match k with
  | dest => .executeOnDest i | destByCaller => .executeOnDest i | same => .executeOnSame i
  | delegate => .executeOnSame i | readOnly => .executeReadOnly i

/-- issue the command of the call; all answers are optional errors -/
def ExecKind.run (kind : ExecKind) (i : CallInput) (k : Option Err → P χ A) : P χ A :=
  match kind with
  | dest => .op (.executeOnDest i) k
  | destByCaller => .op (.executeOnDest i) k
  | same => .op (.executeOnSame i) k
  | delegate => .op (.executeOnSame i) k
  | readOnly => .op (.executeReadOnly i) k

/-- `ExecuteOn…WithTypedArgs` (`elrondei.go` 2267-2307, 2366-2402, 2461-2501, 2556-2596, 2651-2693) after the arguments are read -/
def execTyped (kind : ExecKind) (gasLimit : Int64) (a : CallArgs) : P χ A :=
  gasK kind.cost <| .ask fun s =>
  let sender := if kind = .destByCaller then s.rt.cur.vmInput.caller else s.rt.cur.scAddress
  let value := if kind = .delegate ∨ kind = .readOnly then s.rt.cur.vmInput.callValue else a.value
  if !sameShard E s s.rt.cur.scAddress a.dest then faultK .syncExecutionNotInSameShard 1
  else if kind ≠ .dest ∧ isBuiltInCall E a.function then .pure 1
  else kind.run (callInput s sender value gasLimit a) fun e => orFaultK e 1 (.pure 0)

/-- `executeOnSameContext`, `executeOnDestContext`, `executeOnDestContextByCaller` (`elrondei.go` 2211-2501), and
`delegateExecution`, `executeReadOnly` (2504-2693), which have no value argument -/
def exec (kind : ExecKind) (gasLimit : Int64) (addrOff : Int32) (valueOff : Option Int32)
    (fOff fLen num lenOff dataOff : Int32) : P χ A :=
  extractK addrOff valueOff fOff fLen num lenOff dataOff fun a => execTyped E kind gasLimit a

/-- the helper `createContract` (`elrondei.go` 2851-2875) and the end of its callers (2746-2757, 2815-2827) -/
def createK (value : Int) (args : List Bytes) (gasLimit : Int64) (code metadata : Bytes) (off : Int32) : P χ A :=
  .ask fun s =>
  .op (.createContract { vm := { caller := s.rt.cur.scAddress, args := args, callValue := value, gasPrice := 0,
                                 gasProvided := s.boundGasLimit gasLimit },
                         code := code, metadata := metadata }) fun r =>
  match r with
  | .error _ => .pure 1
  | .ok addr => storeK off addr 1 (.pure 0)

/-- `elrondei.go` 2696-2758 -/
def createContract (gasLimit : Int64) (valueOff codeOff metaOff len off num lenOff dataOff : Int32) : P χ A :=
  gasK .createContract <| loadK valueOff 32 1 fun v => loadK codeOff len 1 fun code => loadK metaOff 2 1 fun md =>
  argsGasK num lenOff dataOff 1 fun args => createK (bytesToNat v) args gasLimit code md off

/-- `elrondei.go` 2761-2848 -/
def deployFromSourceContract (gasLimit : Int64) (valueOff srcOff metaOff off num lenOff dataOff : Int32) : P χ A :=
  gasK .createContract <| loadK valueOff 32 1 fun v => loadK srcOff 32 1 fun src => loadK metaOff 2 1 fun md =>
  argsGasK num lenOff dataOff 1 fun args =>
  .op (.getCode src) fun r =>
  match r with
  | .error e => faultK e 1
  | .ok code => createK (bytesToNat v) args gasLimit code md off

/-! ### Return data -/

/-- `elrondei.go` 2878-2887 -/
def getNumReturnData : P χ A := gasK .getNumReturnData <| .ask fun s =>
  .pure (Int32.ofNat s.out.cur.returnData.length).toInt64
/-- `elrondei.go` 2890-2903; a negative index panics -/
def getReturnDataSize (id : Int32) : P χ A := gasK .getReturnDataSize <| .ask fun s =>
  if id ≥ Int32.ofNat s.out.cur.returnData.length then .pure 0
  else match argAt s.out.cur.returnData id with | none => .panic | some d => .pure (lenRes d)
/-- `elrondei.go` 2906-2925; a negative index panics -/
def getReturnData (id off : Int32) : P χ A := gasK .getReturnData <| .ask fun s =>
  if id ≥ Int32.ofNat s.out.cur.returnData.length then .pure 0
  else match argAt s.out.cur.returnData id with | none => .panic | some d => storeK off d 0 (.pure (lenRes d))

end Eei
end Arwen
