import Verif.Basic.Math
import Verif.Basic.AMap
import Verif.Basic.Bytes
/-
Data types shared by all contexts: errors, call inputs, VM outputs, gas schedule.
The types of package `vmcommon` (a dependency not in /repo) are modelled from their use in /repo.
-/
namespace Arwen

/-! ### Names (`arwen/common.go` 55-99; names of built-in functions from their use in `arwen/host/execution.go`) -/

/-- "init" (`arwen/common.go` 93-94) -/
def initName : Bytes := [105, 110, 105, 116]
/-- "solidity.ctor" (`arwen/common.go` 96-97) -/
def initEthName : Bytes := [115, 111, 108, 105, 100, 105, 116, 121, 46, 99, 116, 111, 114]
/-- "upgradeContract" (`arwen/common.go` 99-100) -/
def upgradeName : Bytes := [117, 112, 103, 114, 97, 100, 101, 67, 111, 110, 116, 114, 97, 99, 116]
/-- "callBack" (`arwen/common.go` 54-56) -/
def callbackName : Bytes := [99, 97, 108, 108, 66, 97, 99, 107]
/-- "ARWEN@" (`arwen/common.go` 58-61) -/
def protectedPrefix : Bytes := [65, 82, 87, 69, 78, 64]
/-- "ARWEN@TIMELOCK" (`arwen/common.go` 63-64) -/
def timelockPrefix : Bytes := protectedPrefix ++ [84, 73, 77, 69, 76, 79, 67, 75]
/-- "ARWEN@ASYNC" (`arwen/common.go` 66-67) -/
def asyncPrefix : Bytes := protectedPrefix ++ [65, 83, 89, 78, 67]
/-- "ESDTTransfer" (`vmcommon.BuiltInFunctionESDTTransfer`) -/
def esdtTransferName : Bytes := [69, 83, 68, 84, 84, 114, 97, 110, 115, 102, 101, 114]
/-- "ESDTNFTTransfer" (`vmcommon.BuiltInFunctionESDTNFTTransfer`) -/
def esdtNFTTransferName : Bytes := [69, 83, 68, 84, 78, 70, 84, 84, 114, 97, 110, 115, 102, 101, 114]
/-- "allocation error" (`arwen/host/arwen.go` 401-407) -/
def allocationError : Bytes := [97, 108, 108, 111, 99, 97, 116, 105, 111, 110, 32, 101, 114, 114, 111, 114]
/-- "execution failed" (`arwen/contexts/runtime.go` 538) -/
def executionFailedText : Bytes := [101, 120, 101, 99, 117, 116, 105, 111, 110, 32, 102, 97, 105, 108, 101, 100]

/-! ### Errors (`arwen/errors.go`) -/

/-- Go errors. `hook n` and `wasm n` are errors of the node and of Wasmer, `other n` are errors made in place with
`errors.New`/`fmt.Errorf` that wrap no sentinel (negative length, addition overflow, call data, JSON). -/
inductive Err
  | returnCodeNotOk | invalidCallOnReadOnlyMode | notEnoughGas | unhandledRuntimeBreakpoint | signalError
  | executionFailed | badBounds | badLowerBounds | badUpperBounds | negativeLength | failedTransfer
  | transferInsufficientFunds | transferNegativeValue | upgradeFailed | invalidUpgradeArguments | invalidFunction
  | initFuncCalledInRun | callBackFuncCalledInRun | callBackFuncNotExpected | funcNotFound
  | invalidFunctionName (name : Bytes) | functionNonvoidSignature (name : Bytes) | funcNotFoundNamed (name : Bytes)
  | contractInvalid | contractNotFound | memoryDeclarationMissing | maxInstancesReached | storeElrondReservedKey
  | cannotWriteProtectedKey | nonPayableFunctionEgld | nonPayableFunctionEsdt | argIndexOutOfRange | argOutOfRange
  | storageValueOutOfRange | divZero | bitwiseNegative | shiftNegative | asyncContextDoesNotExist | invalidAccount
  | deploymentOverExistingAccount | accountNotPayable | invalidPublicKeySize | nilCallbackFunction
  | upgradeNotAllowed | nilContract | builtinCallOnSameContextDisallowed | syncExecutionNotInSameShard
  | inputAndOutputGasDoesNotMatch | transferValueOnESDTCall
  | memLoadBadBounds | memLoadNegativeLength
  | hook (n : Nat) | wasm (n : Nat) | other (n : Nat)
  deriving DecidableEq, Repr, Inhabited

namespace Err
/-- The error wrapped with `%w`, if any (`arwen/errors.go`; the named ones in `contexts/validator.go` 60, 69, 86). -/
def unwrap : Err → Option Err
  | badLowerBounds => some badBounds
  | badUpperBounds => some badBounds
  | transferInsufficientFunds => some failedTransfer
  | transferNegativeValue => some failedTransfer
  | invalidUpgradeArguments => some upgradeFailed
  | initFuncCalledInRun => some invalidFunction
  | callBackFuncCalledInRun => some invalidFunction
  | callBackFuncNotExpected => some invalidFunction
  | funcNotFound => some invalidFunction
  | funcNotFoundNamed _ => some funcNotFound
  | invalidFunctionName _ => some invalidFunction
  | functionNonvoidSignature _ => some invalidFunction
  | contractNotFound => some contractInvalid
  | memoryDeclarationMissing => some contractInvalid
  | maxInstancesReached => some executionFailed
  | memLoadBadBounds => some badBounds
  | memLoadNegativeLength => some negativeLength
  | _ => none

/-- `errors.Is` along the chain of wrapped errors (chains here have length at most 3). -/
def isA (e target : Err) : Bool :=
  e = target ||
  match e.unwrap with
  | none => false
  | some e1 => e1 = target ||
    match e1.unwrap with
    | none => false
    | some e2 => e2 = target
end Err

/-! ### Enumerations -/

/-- `vmcommon.ReturnCode`. -/
inductive ReturnCode
  | ok | functionNotFound | functionWrongSignature | contractNotFound | userError | outOfGas | accountCollision
  | outOfFunds | callStackOverFlow | contractInvalid | executionFailed | upgradeFailed | simulateFailed
  deriving DecidableEq, Repr, Inhabited

/-- numeric value of a return code, as put in the callback arguments (`asyncCall.go` 363-365) -/
def ReturnCode.toNat : ReturnCode → Nat
  | ok => 0 | functionNotFound => 1 | functionWrongSignature => 2 | contractNotFound => 3 | userError => 4
  | outOfGas => 5 | accountCollision => 6 | outOfFunds => 7 | callStackOverFlow => 8 | contractInvalid => 9
  | executionFailed => 10 | upgradeFailed => 11 | simulateFailed => 12

/-- `vmcommon.CallType`. -/
inductive CallType
  | directCall | asynchronousCall | asynchronousCallBack | esdtTransferAndExecute
  deriving DecidableEq, Repr, Inhabited

/-- `arwen/common.go` 13-29. -/
inductive Breakpoint
  | none | executionFailed | asyncCall | signalError | outOfGas
  deriving DecidableEq, Repr, Inhabited

/-- `arwen/interface.go`, `StorageStatus`. -/
inductive StorageStatus
  | unchanged | modified | added | deleted
  deriving DecidableEq, Repr, Inhabited

/-- `arwen/common.go` 69-80. -/
inductive AsyncStatus
  | pending | resolved | rejected
  deriving DecidableEq, Repr, Inhabited

/-- `arwen/common.go` 31-51. -/
inductive AsyncMode
  | syncCall | builtinIntraShard | builtinCrossShard | esdtTransferOnCallBack | unknown
  deriving DecidableEq, Repr, Inhabited

/-! ### Call inputs -/

/-- `vmcommon.ESDTTransfer`. -/
structure EsdtTransfer where
  value : Int
  name : Bytes
  tokenType : UInt32 := 0
  nonce : UInt64 := 0
  deriving DecidableEq, Repr, Inhabited

/-- `vmcommon.VMInput`, the fields that `SetVMInput` (`contexts/runtime.go` 435-484) copies. -/
structure VMInput where
  callType : CallType := .directCall
  gasPrice : UInt64 := 0
  gasProvided : UInt64 := 0
  gasLocked : UInt64 := 0
  callValue : Int := 0
  returnCallAfterError : Bool := false
  caller : Addr := []
  esdt : List EsdtTransfer := []
  originalTxHash : Bytes := []
  currentTxHash : Bytes := []
  args : List Bytes := []
  deriving DecidableEq, Repr, Inhabited

/-- `vmcommon.ContractCallInput`. -/
structure CallInput where
  vm : VMInput
  recipient : Addr
  function : Bytes
  allowInit : Bool := false
  deriving DecidableEq, Repr, Inhabited

/-- `vmcommon.ContractCreateInput`. -/
structure CreateInput where
  vm : VMInput
  code : Bytes
  metadata : Bytes
  deriving DecidableEq, Repr, Inhabited

/-- `arwen/common.go` 103-109. -/
structure CodeDeployInput where
  code : Bytes
  metadata : Bytes
  address : Addr
  deployer : Addr
  deriving DecidableEq, Repr, Inhabited

/-! ### Outputs -/

/-- `vmcommon.OutputTransfer`. -/
structure OutTransfer where
  value : Int := 0
  gasLimit : UInt64 := 0
  gasLocked : UInt64 := 0
  data : Bytes := []
  callType : CallType := .directCall
  sender : Addr := []
  deriving DecidableEq, Repr, Inhabited

/-- `vmcommon.LogEntry`. -/
structure LogEntry where
  identifier : Bytes
  address : Addr
  topics : List Bytes
  data : Bytes
  deriving DecidableEq, Repr, Inhabited

/-- `vmcommon.OutputAccount`. The address is the key in the map of accounts. `StorageUpdates` maps a key to its data
(the `Offset` field repeats the key). A nil `BalanceDelta` is 0, nil code is `[]`. -/
structure OutAcc where
  nonce : UInt64 := 0
  balance : Option Int := none
  balanceDelta : Int := 0
  storage : AMap Bytes Bytes := AMap.empty
  code : Bytes := []
  codeMetadata : Bytes := []
  deployer : Option Addr := none
  transfers : List OutTransfer := []
  gasUsed : UInt64 := 0
  deriving DecidableEq, Repr, Inhabited

/-- `vmcommon.VMOutput` without `DeletedAccounts` and `TouchedAccounts`, which the VM never fills. -/
structure VMOutput where
  returnData : List Bytes := []
  returnCode : ReturnCode := .ok
  returnMessage : Bytes := []
  gasRemaining : UInt64 := 0
  gasRefund : Int := 0
  accounts : AMap Addr OutAcc := AMap.empty
  logs : List LogEntry := []
  deriving DecidableEq, Repr, Inhabited

/-- Output of a built-in function run by the node; its `GasRefund` may be nil. -/
structure BuiltinOutput where
  out : VMOutput
  refundNil : Bool := false
  deriving DecidableEq, Repr, Inhabited

/-! ### Asynchronous calls (`arwen/common.go` 126-192) -/

/-- `arwen/common.go` 126-133. -/
structure AsyncCallInfo where
  destination : Addr
  data : Bytes
  gasLimit : UInt64
  gasLocked : UInt64
  valueBytes : Bytes
  deriving DecidableEq, Repr, Inhabited

/-- `arwen/common.go` 160-170. -/
structure AsyncGeneratedCall where
  status : AsyncStatus := .pending
  destination : Addr
  data : Bytes
  gasLimit : UInt64 := 0
  valueBytes : Bytes
  successCallback : Bytes
  errorCallback : Bytes
  providedGas : UInt64
  deriving DecidableEq, Repr, Inhabited

/-- `arwen/common.go` 172-177. -/
structure AsyncContext where
  callback : Bytes := []
  calls : List AsyncGeneratedCall := []
  deriving DecidableEq, Repr, Inhabited

/-- `arwen/common.go` 179-185. -/
structure AsyncContextInfo where
  caller : Addr := []
  returnData : Bytes := []
  contexts : AMap Bytes AsyncContext := AMap.empty
  deriving DecidableEq, Repr, Inhabited

/-- What `arwen.AsyncCallInfoHandler` exposes (`arwen/common.go` 135-158, 187-209);
a generated call never has locked gas. -/
structure AsyncView where
  destination : Addr
  data : Bytes
  gasLimit : UInt64
  gasLocked : UInt64
  valueBytes : Bytes
  deriving DecidableEq, Repr, Inhabited

def AsyncCallInfo.view (i : AsyncCallInfo) : AsyncView := ⟨i.destination, i.data, i.gasLimit, i.gasLocked, i.valueBytes⟩
def AsyncGeneratedCall.view (c : AsyncGeneratedCall) : AsyncView := ⟨c.destination, c.data, c.gasLimit, 0, c.valueBytes⟩

/-! ### Gas schedule (`config/gasCost.go`) -/

/-- Names of the API costs: `ElrondAPICost`, `BigIntAPICost`, `CryptoAPICost` (`config/gasCost.go` 24-64, 102-147). -/
inductive ApiCost
  | getSCAddress | getOwnerAddress | isSmartContract | getShardOfAddress | getExternalBalance | getBlockHash
  | transferValue | getArgument | getFunction | getNumArguments | storageStore | storageLoad | getCaller
  | getCallValue | log | finish | signalError | getBlockTimeStamp | getGasLeft | int64GetArgument
  | int64StorageStore | int64StorageLoad | int64Finish | getStateRootHash | getBlockNonce | getBlockEpoch
  | getBlockRound | getBlockRandomSeed | executeOnSameContext | executeOnDestContext | delegateExecution
  | executeReadOnly | asyncCallStep | asyncCallbackGasLock | createContract | getReturnData | getNumReturnData
  | getReturnDataSize
  | bigIntNew | bigIntUnsignedByteLength | bigIntSignedByteLength | bigIntGetUnsignedBytes | bigIntGetSignedBytes
  | bigIntSetUnsignedBytes | bigIntSetSignedBytes | bigIntIsInt64 | bigIntGetInt64 | bigIntSetInt64 | bigIntAdd
  | bigIntSub | bigIntMul | bigIntTDiv | bigIntTMod | bigIntEDiv | bigIntEMod | bigIntAbs | bigIntNeg | bigIntSign
  | bigIntCmp | bigIntNot | bigIntAnd | bigIntOr | bigIntXor | bigIntShr | bigIntShl | bigIntFinishUnsigned
  | bigIntFinishSigned | bigIntStorageLoadUnsigned | bigIntStorageStoreUnsigned | bigIntGetUnsignedArgument
  | bigIntGetSignedArgument | bigIntGetCallValue | bigIntGetExternalBalance
  | sha256 | keccak256 | ripemd160 | verifyBLS | verifyEd25519 | verifySecp256k1
  deriving DecidableEq, Repr, Inhabited

/-- `config/gasCost.go` 14-22 and the API costs. The Ethereum costs are never read; the opcode costs are inside Wasmer. -/
structure GasSchedule where
  storePerByte : UInt64
  releasePerByte : UInt64
  dataCopyPerByte : UInt64
  persistPerByte : UInt64
  compilePerByte : UInt64
  aotPreparePerByte : UInt64
  getCode : UInt64
  api : ApiCost → UInt64

end Arwen
