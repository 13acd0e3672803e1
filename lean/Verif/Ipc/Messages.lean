import Verif.Ipc.Output
import Verif.State.Machine
/-
Model of the messages between the node and the Arwen process: `ipc/common/messages.go`, `messagesBlockchain.go`,
`messagesContracts.go`, `messagesDiagnose.go`, `messagesFactory.go`. Marshalling (JSON or gob) is trusted to give back every field
of a message that is read into the Go type it was written from.
-/
namespace Arwen.Ipc

/-- `MessageKind` (`messages.go` 8-86), in the order of the constants; kinds about the blockchain hook without their prefix. -/
inductive Kind
  | firstKind | initialize | stop | contractDeployRequest | contractCallRequest | contractResponse | gasScheduleChangeRequest
  | gasScheduleChangeResponse | newAddressRequest | newAddressResponse | getStorageDataRequest | getStorageDataResponse
  | getBlockhashRequest | getBlockhashResponse | lastNonceRequest | lastNonceResponse | lastRoundRequest | lastRoundResponse
  | lastTimeStampRequest | lastTimeStampResponse | lastRandomSeedRequest | lastRandomSeedResponse | lastEpochRequest
  | lastEpochResponse | getStateRootHashRequest | getStateRootHashResponse | currentNonceRequest | currentNonceResponse
  | currentRoundRequest | currentRoundResponse | currentTimeStampRequest | currentTimeStampResponse | currentRandomSeedRequest
  | currentRandomSeedResponse | currentEpochRequest | currentEpochResponse | processBuiltinFunctionRequest
  | processBuiltinFunctionResponse | getESDTTokenRequest | getESDTTokenResponse | getBuiltinFunctionNamesRequest
  | getBuiltinFunctionNamesResponse | getAllStateRequest | getAllStateResponse | getUserAccountRequest | getUserAccountResponse
  | getCodeRequest | getCodeResponse | getShardOfAddressRequest | getShardOfAddressResponse | isPayableRequest
  | isPayableResponse | isSmartContractRequest | isSmartContractResponse | saveCompiledCodeRequest | saveCompiledCodeResponse
  | getCompiledCodeRequest | getCompiledCodeResponse | diagnoseWaitRequest | diagnoseWaitResponse | versionRequest
  | versionResponse | clearCompiledCodesRequest | clearCompiledCodesResponse | getSnapshotRequest | getSnapshotResponse
  | isInterfaceNilRequest | isInterfaceNilResponse | revertToSnapshotRequest | revertToSnapshotResponse
  | processBuiltInFunctionRequest | processBuiltInFunctionResponse | undefinedRequestOrResponse | lastKind
  deriving DecidableEq, Repr, Inhabited

/-- the number of the kind, as Go's `iota` assigns it -/
def Kind.code (k : Kind) : Nat := k.ctorIdx

/-- `vmcommon.BlockchainHook`: the functions that the node offers. -/
inductive HookFn
  | newAddress | getStorageData | getBlockhash | lastNonce | lastRound | lastTimeStamp | lastRandomSeed | lastEpoch
  | getStateRootHash | currentNonce | currentRound | currentTimeStamp | currentRandomSeed | currentEpoch
  | processBuiltInFunction | getBuiltinFunctionNames | getAllState | getUserAccount | getCode | getShardOfAddress
  | isSmartContract | isPayable | saveCompiledCode | getCompiledCode | clearCompiledCodes | getESDTToken | isInterfaceNil
  | getSnapshot | revertToSnapshot
  deriving DecidableEq, Repr, Inhabited

/-- `common.Account` (`ipc/common/account.go` 10-20). -/
structure Account where
  nonce : UInt64 := 0
  balance : Int := 0
  codeHash : Bytes := []
  rootHash : Bytes := []
  address : Bytes := []
  developerReward : Int := 0
  owner : Bytes := []
  userName : Bytes := []
  codeMetadata : Bytes := []
  deriving DecidableEq, Repr, Inhabited

/-- arguments of the functions of the hook -/
abbrev Args : HookFn → Type
  | .newAddress => Bytes × UInt64 × Bytes
  | .getStorageData => Bytes × Bytes
  | .getBlockhash => UInt64
  | .processBuiltInFunction => CallInput
  | .getAllState | .getUserAccount | .getShardOfAddress | .isSmartContract | .isPayable | .getCompiledCode => Bytes
  | .getCode => Account
  | .saveCompiledCode => Bytes × Bytes
  | .getESDTToken => Bytes × Bytes × UInt64
  | .revertToSnapshot => Int
  | _ => Unit

/-- results of the functions of the hook, without the error that some of them return too -/
abbrev Result : HookFn → Type
  | .newAddress | .getStorageData | .getBlockhash | .lastRandomSeed | .getStateRootHash | .currentRandomSeed | .getCode => Bytes
  | .lastNonce | .lastRound | .lastTimeStamp | .currentNonce | .currentRound | .currentTimeStamp => UInt64
  | .lastEpoch | .currentEpoch | .getShardOfAddress => UInt32
  | .processBuiltInFunction => Option RawOutput
  | .getBuiltinFunctionNames => List Bytes
  | .getAllState => AMap Bytes Bytes
  | .getUserAccount => Option Account
  | .isSmartContract | .isPayable | .isInterfaceNil => Bool
  | .getCompiledCode => Bool × Bytes
  | .getESDTToken => Option EsdtToken
  | .getSnapshot => Int
  | _ => Unit

/-- does the function return an error besides its result? -/
def HookFn.fallible : HookFn → Bool
  | .newAddress | .getStorageData | .getBlockhash | .processBuiltInFunction | .getAllState | .getUserAccount | .isPayable
  | .getESDTToken | .revertToSnapshot => true
  | _ => false

/-- the results as messages carry them (`messagesBlockchain.go`) -/
abbrev WireResult : HookFn → Type
  | .processBuiltInFunction => SerOutput
  | .getAllState => SerMap
  | f => Result f

/-- the result put into the response; an account that comes with an error is dropped
(`nodepart/blockchainRepliers.go` 132-154) -/
def wire (ord : Orders) (failed : Bool) : (f : HookFn) → Result f → WireResult f
  | .processBuiltInFunction, o => SerOutput.new ord o
  | .getAllState, m => SerMap.new ord m
  | .getUserAccount, a => if failed then none else a
  | .newAddress, r => r
  | .getStorageData, r => r
  | .getBlockhash, r => r
  | .lastNonce, r => r
  | .lastRound, r => r
  | .lastTimeStamp, r => r
  | .lastRandomSeed, r => r
  | .lastEpoch, r => r
  | .getStateRootHash, r => r
  | .currentNonce, r => r
  | .currentRound, r => r
  | .currentTimeStamp, r => r
  | .currentRandomSeed, r => r
  | .currentEpoch, r => r
  | .getBuiltinFunctionNames, r => r
  | .getCode, r => r
  | .getShardOfAddress, r => r
  | .isSmartContract, r => r
  | .isPayable, r => r
  | .saveCompiledCode, r => r
  | .getCompiledCode, r => r
  | .clearCompiledCodes, r => r
  | .getESDTToken, r => r
  | .isInterfaceNil, r => r
  | .getSnapshot, r => r
  | .revertToSnapshot, r => r

/-- the result taken from the response; `none` if the conversion panics -/
def unwire : (f : HookFn) → WireResult f → Option (Result f)
  | .processBuiltInFunction, o => some (some o.convert)
  | .getAllState, m => m.convert
  | .newAddress, r => some r
  | .getStorageData, r => some r
  | .getBlockhash, r => some r
  | .lastNonce, r => some r
  | .lastRound, r => some r
  | .lastTimeStamp, r => some r
  | .lastRandomSeed, r => some r
  | .lastEpoch, r => some r
  | .getStateRootHash, r => some r
  | .currentNonce, r => some r
  | .currentRound, r => some r
  | .currentTimeStamp, r => some r
  | .currentRandomSeed, r => some r
  | .currentEpoch, r => some r
  | .getBuiltinFunctionNames, r => some r
  | .getUserAccount, r => some r
  | .getCode, r => some r
  | .getShardOfAddress, r => some r
  | .isSmartContract, r => some r
  | .isPayable, r => some r
  | .saveCompiledCode, r => some r
  | .getCompiledCode, r => some r
  | .clearCompiledCodes, r => some r
  | .getESDTToken, r => some r
  | .isInterfaceNil, r => some r
  | .getSnapshot, r => some r
  | .revertToSnapshot, r => some r

/-- The Go types of messages. `undefined` stands for `UndefinedMessage` and for the bare `Message`: they have the header only. -/
inductive GoType
  | undefined | initialize | stop | deployRequest | callRequest | contractResponse | waitRequest | waitResponse
  | versionRequest | versionResponse | gasRequest
  | request (f : HookFn) | response (f : HookFn)
  deriving DecidableEq, Repr, Inhabited

/-- the schedule of gas costs that a message carries -/
abbrev GasTable := List (Bytes × List (Bytes × UInt64))

/-- what a message carries besides its header -/
inductive Body
  | undefined
  | stop
  | deployRequest (input : CreateInput)
  | callRequest (input : CallInput)
  | contractResponse (output : SerOutput)
  | waitRequest (ms : UInt32)
  | waitResponse
  | versionRequest
  | versionResponse (version : Bytes)
  | gasRequest (schedule : GasTable)
  | request (f : HookFn) (args : Args f)
  | response (f : HookFn) (result : WireResult f)

def Body.goType : Body → GoType
  | .undefined => .undefined
  | .stop => .stop
  | .deployRequest _ => .deployRequest
  | .callRequest _ => .callRequest
  | .contractResponse _ => .contractResponse
  | .waitRequest _ => .waitRequest
  | .waitResponse => .waitResponse
  | .versionRequest => .versionRequest
  | .versionResponse _ => .versionResponse
  | .gasRequest _ => .gasRequest
  | .request f _ => .request f
  | .response f _ => .response f

/-- `Message` (`messages.go` 180-185) with what embeds it. -/
structure Msg where
  nonce : UInt32 := 0
  kind : Kind
  error : Bytes := []
  body : Body

/-- `messageCreators` (`messagesFactory.go` 18-94): the Go type that the receiver makes for a kind. -/
def creates : Kind → GoType
  | .initialize => .initialize
  | .stop => .stop
  | .contractDeployRequest => .deployRequest
  | .contractCallRequest => .callRequest
  | .contractResponse => .contractResponse
  | .diagnoseWaitRequest => .waitRequest
  | .diagnoseWaitResponse => .waitResponse
  | .versionRequest => .versionRequest
  | .versionResponse => .versionResponse
  | .newAddressRequest => .request .newAddress
  | .newAddressResponse => .response .newAddress
  | .getStorageDataRequest => .request .getStorageData
  | .getStorageDataResponse => .response .getStorageData
  | .getBlockhashRequest => .request .getBlockhash
  | .getBlockhashResponse => .response .getBlockhash
  | .lastNonceRequest => .request .lastNonce
  | .lastNonceResponse => .response .lastNonce
  | .lastRoundRequest => .request .lastRound
  | .lastRoundResponse => .response .lastRound
  | .lastTimeStampRequest => .request .lastTimeStamp
  | .lastTimeStampResponse => .response .lastTimeStamp
  | .lastRandomSeedRequest => .request .lastRandomSeed
  | .lastRandomSeedResponse => .response .lastRandomSeed
  | .lastEpochRequest => .request .lastEpoch
  | .lastEpochResponse => .response .lastEpoch
  | .getStateRootHashRequest => .request .getStateRootHash
  | .getStateRootHashResponse => .response .getStateRootHash
  | .currentNonceRequest => .request .currentNonce
  | .currentNonceResponse => .response .currentNonce
  | .currentRoundRequest => .request .currentRound
  | .currentRoundResponse => .response .currentRound
  | .currentTimeStampRequest => .request .currentTimeStamp
  | .currentTimeStampResponse => .response .currentTimeStamp
  | .currentRandomSeedRequest => .request .currentRandomSeed
  | .currentRandomSeedResponse => .response .currentRandomSeed
  | .currentEpochRequest => .request .currentEpoch
  | .currentEpochResponse => .response .currentEpoch
  | .processBuiltInFunctionRequest => .request .processBuiltInFunction
  | .processBuiltInFunctionResponse => .response .processBuiltInFunction
  | .getBuiltinFunctionNamesRequest => .request .getBuiltinFunctionNames
  | .getBuiltinFunctionNamesResponse => .response .getBuiltinFunctionNames
  | .getAllStateRequest => .request .getAllState
  | .getAllStateResponse => .response .getAllState
  | .getUserAccountRequest => .request .getUserAccount
  | .getUserAccountResponse => .response .getUserAccount
  | .getCodeRequest => .request .getCode
  | .getCodeResponse => .response .getCode
  | .getShardOfAddressRequest => .request .getShardOfAddress
  | .getShardOfAddressResponse => .response .getShardOfAddress
  | .isSmartContractRequest => .request .isSmartContract
  | .isSmartContractResponse => .response .isSmartContract
  | .isPayableRequest => .request .isPayable
  | .isPayableResponse => .response .isPayable
  | .saveCompiledCodeRequest => .request .saveCompiledCode
  | .saveCompiledCodeResponse => .response .saveCompiledCode
  | .getCompiledCodeRequest => .request .getCompiledCode
  | .getCompiledCodeResponse => .response .getCompiledCode
  | .clearCompiledCodesRequest => .request .clearCompiledCodes
  | .clearCompiledCodesResponse => .response .clearCompiledCodes
  | .getESDTTokenRequest => .request .getESDTToken
  | .getESDTTokenResponse => .response .getESDTToken
  | .isInterfaceNilRequest => .request .isInterfaceNil
  | .isInterfaceNilResponse => .response .isInterfaceNil
  | .getSnapshotRequest => .request .getSnapshot
  | .getSnapshotResponse => .response .getSnapshot
  | .revertToSnapshotRequest => .request .revertToSnapshot
  | .revertToSnapshotResponse => .response .revertToSnapshot
  | _ => .undefined

/-- A message as it arrives: `Receive` (`receiver.go` 72-86) reads it into the Go type made for its kind. Of a message that was
written from another type only the header remains. -/
def Msg.arrived (m : Msg) : Msg := if creates m.kind = m.body.goType then m else { m with body := .undefined }

/-- `NewUndefinedMessage` (`messages.go` 266-271). -/
def undefinedMsg : Msg := { nonce := 0xffffffff, kind := .undefinedRequestOrResponse, body := .undefined }

/-- kinds of the requests that the gateway makes (`arwenpart/blockchainGateway.go`, `messagesBlockchain.go`); its `IsInterfaceNil`
(473-475) makes none. -/
def HookFn.requestKind : HookFn → Option Kind
  | .newAddress => some .newAddressRequest
  | .getStorageData => some .getStorageDataRequest
  | .getBlockhash => some .getBlockhashRequest
  | .lastNonce => some .lastNonceRequest
  | .lastRound => some .lastRoundRequest
  | .lastTimeStamp => some .lastTimeStampRequest
  | .lastRandomSeed => some .lastRandomSeedRequest
  | .lastEpoch => some .lastEpochRequest
  | .getStateRootHash => some .getStateRootHashRequest
  | .currentNonce => some .currentNonceRequest
  | .currentRound => some .currentRoundRequest
  | .currentTimeStamp => some .currentTimeStampRequest
  | .currentRandomSeed => some .currentRandomSeedRequest
  | .currentEpoch => some .currentEpochRequest
  | .processBuiltInFunction => some .processBuiltInFunctionRequest
  | .getBuiltinFunctionNames => some .getBuiltinFunctionNamesRequest
  | .getAllState => some .getAllStateRequest
  | .getUserAccount => some .getUserAccountRequest
  | .getCode => some .getCodeRequest
  | .getShardOfAddress => some .getShardOfAddressRequest
  | .isSmartContract => some .isSmartContractRequest
  | .isPayable => some .isPayableRequest
  | .saveCompiledCode => some .saveCompiledCodeRequest
  | .getCompiledCode => some .getCompiledCodeRequest
  | .clearCompiledCodes => some .clearCompiledCodesRequest
  | .getESDTToken => some .getESDTTokenRequest
  | .isInterfaceNil => none
  | .getSnapshot => some .getSnapshotRequest
  | .revertToSnapshot => some .revertToSnapshotRequest

/-- kinds that the gateway expects in answers -/
def HookFn.responseKind : HookFn → Kind
  | .newAddress => .newAddressResponse
  | .getStorageData => .getStorageDataResponse
  | .getBlockhash => .getBlockhashResponse
  | .lastNonce => .lastNonceResponse
  | .lastRound => .lastRoundResponse
  | .lastTimeStamp => .lastTimeStampResponse
  | .lastRandomSeed => .lastRandomSeedResponse
  | .lastEpoch => .lastEpochResponse
  | .getStateRootHash => .getStateRootHashResponse
  | .currentNonce => .currentNonceResponse
  | .currentRound => .currentRoundResponse
  | .currentTimeStamp => .currentTimeStampResponse
  | .currentRandomSeed => .currentRandomSeedResponse
  | .currentEpoch => .currentEpochResponse
  | .processBuiltInFunction => .processBuiltInFunctionResponse
  | .getBuiltinFunctionNames => .getBuiltinFunctionNamesResponse
  | .getAllState => .getAllStateResponse
  | .getUserAccount => .getUserAccountResponse
  | .getCode => .getCodeResponse
  | .getShardOfAddress => .getShardOfAddressResponse
  | .isSmartContract => .isSmartContractResponse
  | .isPayable => .isPayableResponse
  | .saveCompiledCode => .saveCompiledCodeResponse
  | .getCompiledCode => .getCompiledCodeResponse
  | .clearCompiledCodes => .clearCompiledCodesResponse
  | .getESDTToken => .getESDTTokenResponse
  | .isInterfaceNil => .isInterfaceNilResponse
  | .getSnapshot => .getSnapshotResponse
  | .revertToSnapshot => .revertToSnapshotResponse

/-- the kinds that the repliers give to their answers (`messagesBlockchain.go`) -/
def HookFn.replyKind : HookFn → Kind
  | .newAddress => .newAddressResponse
  | .getStorageData => .getStorageDataResponse
  | .getBlockhash => .getBlockhashResponse
  | .lastNonce => .lastNonceResponse
  | .lastRound => .lastRoundResponse
  | .lastTimeStamp => .lastTimeStampResponse
  | .lastRandomSeed => .lastRandomSeedResponse
  | .lastEpoch => .lastEpochResponse
  | .getStateRootHash => .getStateRootHashResponse
  | .currentNonce => .currentNonceResponse
  | .currentRound => .currentRoundResponse
  | .currentTimeStamp => .currentTimeStampResponse
  | .currentRandomSeed => .currentRandomSeedResponse
  | .currentEpoch => .currentEpochResponse
  | .processBuiltInFunction => .processBuiltInFunctionResponse
  | .getBuiltinFunctionNames => .getBuiltinFunctionNamesResponse
  | .getAllState => .getAllStateResponse
  | .getUserAccount => .getUserAccountResponse
  | .getCode => .getCodeResponse
  | .getShardOfAddress => .getShardOfAddressResponse
  | .isSmartContract => .isSmartContractResponse
  | .isPayable => .isPayableResponse
  | .saveCompiledCode => .saveCompiledCodeResponse
  | .getCompiledCode => .getCompiledCodeResponse
  | .clearCompiledCodes => .clearCompiledCodesResponse
  | .getESDTToken => .getESDTTokenResponse
  | .isInterfaceNil => .isInterfaceNilResponse
  | .getSnapshot => .getSnapshotResponse
  | .revertToSnapshot => .revertToSnapshotResponse

/-- `part.Repliers` of the node (`nodepart/part.go` 38-67); `none` is `noopReplier`. -/
def nodeReplier : Kind → Option HookFn
  | .newAddressRequest => some .newAddress
  | .getStorageDataRequest => some .getStorageData
  | .getBlockhashRequest => some .getBlockhash
  | .lastNonceRequest => some .lastNonce
  | .lastRoundRequest => some .lastRound
  | .lastTimeStampRequest => some .lastTimeStamp
  | .lastRandomSeedRequest => some .lastRandomSeed
  | .lastEpochRequest => some .lastEpoch
  | .getStateRootHashRequest => some .getStateRootHash
  | .currentNonceRequest => some .currentNonce
  | .currentRoundRequest => some .currentRound
  | .currentTimeStampRequest => some .currentTimeStamp
  | .currentRandomSeedRequest => some .currentRandomSeed
  | .currentEpochRequest => some .currentEpoch
  | .processBuiltInFunctionRequest => some .processBuiltInFunction
  | .getBuiltinFunctionNamesRequest => some .getBuiltinFunctionNames
  | .getAllStateRequest => some .getAllState
  | .getUserAccountRequest => some .getUserAccount
  | .getCodeRequest => some .getCode
  | .getShardOfAddressRequest => some .getShardOfAddress
  | .isSmartContractRequest => some .isSmartContract
  | .isPayableRequest => some .isPayable
  | .saveCompiledCodeRequest => some .saveCompiledCode
  | .getCompiledCodeRequest => some .getCompiledCode
  | .clearCompiledCodesRequest => some .clearCompiledCodes
  | .getESDTTokenRequest => some .getESDTToken
  | .isInterfaceNilRequest => some .isInterfaceNil
  | .getSnapshotRequest => some .getSnapshot
  | .revertToSnapshotRequest => some .revertToSnapshot
  | _ => none

/-- `IsHookCall` (`messages.go` 287-290). -/
def isHookCall (k : Kind) : Bool := Kind.newAddressRequest.code ≤ k.code && k.code ≤ Kind.getCompiledCodeResponse.code

/-- `IsVersionResponse`, `IsContractResponse`, `IsDiagnose`, `IsGasScheduleChangeResponse` (`messages.go` 298-316): the messages
that end the loop of the node (`nodepart/part.go` 120-131). -/
def endsLoop (k : Kind) : Bool :=
  k = .versionResponse || k = .contractResponse ||
    (Kind.diagnoseWaitRequest.code ≤ k.code && k.code ≤ Kind.diagnoseWaitResponse.code) || k = .gasScheduleChangeResponse

/-- `SetError` (`messages.go` 216-220) on the text of an error. -/
def setError : Option Bytes → Bytes
  | none => []
  | some text => text

/-- `GetError` (`messages.go` 207-213). `errorf` is Go's `fmt.Errorf` without arguments. -/
def getError (errorf : Bytes → Bytes) (text : Bytes) : Option Bytes := if text.length = 0 then none else some (errorf text)

end Arwen.Ipc
