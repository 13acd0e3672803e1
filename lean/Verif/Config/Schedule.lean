import Verif.Basic.AMap
import Verif.State.Types
import Verif.Config.Fields
/-!
Gas schedules: `config/gasSchedule.go`, `config/gasCost.go`, and their use by the host (`arwen/host/arwen.go`,
`arwen/contexts/metering.go`). The library `mapstructure` (v1.4.1), which fills a struct from a map, is modelled by `decodeField`: a
field takes the value under its own name or, if there is none, under the first key in iteration order that differs from the name
only in case; a value too large for the field is cut, as by `reflect.Value.SetUint`.
-/
namespace Arwen.Config

/-- the sections of a gas schedule that the host reads (`GasCost`, `config/gasCost.go` 5-12) -/
inductive Section | base | api | bigInt | eth | crypto | opcode
  deriving DecidableEq, Repr

/-- the key of a section (`gasSchedule.go` 19, 30, 41, 52, 63, 74) -/
def Section.key : Section → String
  | .base => "BaseOperationCost" | .api => "ElrondAPICost" | .bigInt => "BigIntAPICost" | .eth => "EthAPICost"
  | .crypto => "CryptoAPICost" | .opcode => "WASMOpcodeCost"

def Section.fields : Section → List String
  | .base => baseFields | .api => apiFields | .bigInt => bigIntFields | .eth => ethFields | .crypto => cryptoFields
  | .opcode => opcodeFields

/-- `GasScheduleMap` (`gasSchedule.go` 15). -/
abbrev ScheduleMap := AMap String (AMap String UInt64)

/-- what the library takes from Go: comparison up to case (`strings.EqualFold`) and the order in which it meets the keys of a map -/
structure Decoder where
  sameFold : String → String → Bool
  order : AMap String UInt64 → List String

/-- the fields of opcodes have 32 bits, the others 64 (`gasCost.go` 14-598) -/
def Section.cut : Section → UInt64 → UInt64
  | .opcode, v => v.toUInt32.toUInt64
  | _, v => v

/-- the value found for a field -/
def foundFor (D : Decoder) (m : AMap String UInt64) (field : String) : Option UInt64 :=
  match m.get? field with
  | some v => some v
  | none =>
    match (D.order m).find? fun k => D.sameFold k field with
    | some k => m.get? k
    | none => none

/-- `mapstructure.Decode` for one field; a missing section is an empty one -/
def decodeField (D : Decoder) (m : ScheduleMap) (s : Section) (field : String) : UInt64 :=
  match foundFor D ((m.get? s.key).getD AMap.empty) field with
  | some v => s.cut v
  | none => 0

/-- `GasCost` (`gasCost.go` 5-12): the value of every field of every section -/
abbrev GasCost := Section → String → UInt64

/-- `checkForZeroUint64Fields` (`gasSchedule.go` 96-110): the first field that is zero. -/
def firstZero (fields : List String) (cost : String → UInt64) : Option String := fields.find? fun f => cost f == 0

/-- `CreateGasConfig` (`gasSchedule.go` 17-94). The error is the name of the field. -/
def createGasConfig (D : Decoder) (m : ScheduleMap) : Except String GasCost :=
  let cost := decodeField D m
  match [Section.base, .api, .bigInt, .eth, .crypto, .opcode].findSome? fun s => firstZero s.fields (cost s) with
  | some field => .error field
  | none => .ok cost

/-- `ToOpcodeCostsArray` (`gasCost.go` 600-1055). -/
def opcodeCosts (c : GasCost) : List UInt64 := opcodes.map (c .opcode)

/-- where the cost of an API function is found (`gasCost.go` 24-146) -/
def costName : ApiCost → Section × String
  | .getSCAddress => (.api, "GetSCAddress")
  | .getOwnerAddress => (.api, "GetOwnerAddress")
  | .isSmartContract => (.api, "IsSmartContract")
  | .getShardOfAddress => (.api, "GetShardOfAddress")
  | .getExternalBalance => (.api, "GetExternalBalance")
  | .getBlockHash => (.api, "GetBlockHash")
  | .transferValue => (.api, "TransferValue")
  | .getArgument => (.api, "GetArgument")
  | .getFunction => (.api, "GetFunction")
  | .getNumArguments => (.api, "GetNumArguments")
  | .storageStore => (.api, "StorageStore")
  | .storageLoad => (.api, "StorageLoad")
  | .getCaller => (.api, "GetCaller")
  | .getCallValue => (.api, "GetCallValue")
  | .log => (.api, "Log")
  | .finish => (.api, "Finish")
  | .signalError => (.api, "SignalError")
  | .getBlockTimeStamp => (.api, "GetBlockTimeStamp")
  | .getGasLeft => (.api, "GetGasLeft")
  | .int64GetArgument => (.api, "Int64GetArgument")
  | .int64StorageStore => (.api, "Int64StorageStore")
  | .int64StorageLoad => (.api, "Int64StorageLoad")
  | .int64Finish => (.api, "Int64Finish")
  | .getStateRootHash => (.api, "GetStateRootHash")
  | .getBlockNonce => (.api, "GetBlockNonce")
  | .getBlockEpoch => (.api, "GetBlockEpoch")
  | .getBlockRound => (.api, "GetBlockRound")
  | .getBlockRandomSeed => (.api, "GetBlockRandomSeed")
  | .executeOnSameContext => (.api, "ExecuteOnSameContext")
  | .executeOnDestContext => (.api, "ExecuteOnDestContext")
  | .delegateExecution => (.api, "DelegateExecution")
  | .executeReadOnly => (.api, "ExecuteReadOnly")
  | .asyncCallStep => (.api, "AsyncCallStep")
  | .asyncCallbackGasLock => (.api, "AsyncCallbackGasLock")
  | .createContract => (.api, "CreateContract")
  | .getReturnData => (.api, "GetReturnData")
  | .getNumReturnData => (.api, "GetNumReturnData")
  | .getReturnDataSize => (.api, "GetReturnDataSize")
  | .bigIntNew => (.bigInt, "BigIntNew")
  | .bigIntUnsignedByteLength => (.bigInt, "BigIntUnsignedByteLength")
  | .bigIntSignedByteLength => (.bigInt, "BigIntSignedByteLength")
  | .bigIntGetUnsignedBytes => (.bigInt, "BigIntGetUnsignedBytes")
  | .bigIntGetSignedBytes => (.bigInt, "BigIntGetSignedBytes")
  | .bigIntSetUnsignedBytes => (.bigInt, "BigIntSetUnsignedBytes")
  | .bigIntSetSignedBytes => (.bigInt, "BigIntSetSignedBytes")
  | .bigIntIsInt64 => (.bigInt, "BigIntIsInt64")
  | .bigIntGetInt64 => (.bigInt, "BigIntGetInt64")
  | .bigIntSetInt64 => (.bigInt, "BigIntSetInt64")
  | .bigIntAdd => (.bigInt, "BigIntAdd")
  | .bigIntSub => (.bigInt, "BigIntSub")
  | .bigIntMul => (.bigInt, "BigIntMul")
  | .bigIntTDiv => (.bigInt, "BigIntTDiv")
  | .bigIntTMod => (.bigInt, "BigIntTMod")
  | .bigIntEDiv => (.bigInt, "BigIntEDiv")
  | .bigIntEMod => (.bigInt, "BigIntEMod")
  | .bigIntAbs => (.bigInt, "BigIntAbs")
  | .bigIntNeg => (.bigInt, "BigIntNeg")
  | .bigIntSign => (.bigInt, "BigIntSign")
  | .bigIntCmp => (.bigInt, "BigIntCmp")
  | .bigIntNot => (.bigInt, "BigIntNot")
  | .bigIntAnd => (.bigInt, "BigIntAnd")
  | .bigIntOr => (.bigInt, "BigIntOr")
  | .bigIntXor => (.bigInt, "BigIntXor")
  | .bigIntShr => (.bigInt, "BigIntShr")
  | .bigIntShl => (.bigInt, "BigIntShl")
  | .bigIntFinishUnsigned => (.bigInt, "BigIntFinishUnsigned")
  | .bigIntFinishSigned => (.bigInt, "BigIntFinishSigned")
  | .bigIntStorageLoadUnsigned => (.bigInt, "BigIntStorageLoadUnsigned")
  | .bigIntStorageStoreUnsigned => (.bigInt, "BigIntStorageStoreUnsigned")
  | .bigIntGetUnsignedArgument => (.bigInt, "BigIntGetUnsignedArgument")
  | .bigIntGetSignedArgument => (.bigInt, "BigIntGetSignedArgument")
  | .bigIntGetCallValue => (.bigInt, "BigIntGetCallValue")
  | .bigIntGetExternalBalance => (.bigInt, "BigIntGetExternalBalance")
  | .sha256 => (.crypto, "SHA256")
  | .keccak256 => (.crypto, "Keccak256")
  | .ripemd160 => (.crypto, "Ripemd160")
  | .verifyBLS => (.crypto, "VerifyBLS")
  | .verifyEd25519 => (.crypto, "VerifyEd25519")
  | .verifySecp256k1 => (.crypto, "VerifySecp256k1")

/-- the costs as the rest of the model uses them -/
def GasCost.schedule (c : GasCost) : GasSchedule where
  storePerByte := c .base "StorePerByte"
  releasePerByte := c .base "ReleasePerByte"
  dataCopyPerByte := c .base "DataCopyPerByte"
  persistPerByte := c .base "PersistPerByte"
  compilePerByte := c .base "CompilePerByte"
  aotPreparePerByte := c .base "AoTPreparePerByte"
  getCode := c .base "GetCode"
  api := fun a => c (costName a).1 (costName a).2

/-- what the host and its metering keep of a gas schedule, and the costs set in Wasmer -/
structure HostGas where
  stored : ScheduleMap
  costs : GasCost
  wasmer : List UInt64

/-- `NewArwenVM` (`arwen.go` 67-171) as far as it handles the schedule, with `NewMeteringContext` (`metering.go` 26-48). -/
def newHost (D : Decoder) (m : ScheduleMap) : Except String HostGas := do
  let costs ← createGasConfig D m
  let again ← createGasConfig D m
  return { stored := m, costs := costs, wasmer := opcodeCosts again }

/-- `SetGasSchedule` (`metering.go` 303-310). -/
def setGasSchedule (D : Decoder) (m : ScheduleMap) (h : HostGas) : HostGas :=
  match createGasConfig D m with
  | .error _ => h
  | .ok c => { h with costs := c }

/-- `GasScheduleChange` (`arwen.go` 304-319). -/
def gasScheduleChange (D : Decoder) (m : ScheduleMap) (h : HostGas) : HostGas :=
  let h := { h with stored := m }
  match createGasConfig D m with
  | .error _ => h
  | .ok c => setGasSchedule D m { h with wasmer := opcodeCosts c }

/-- `GetGasScheduleMap` (`arwen.go` 322-324). -/
def getGasScheduleMap (h : HostGas) : ScheduleMap := h.stored

/-- assign the same value to all the keys -/
def fill (names : List String) (value : String → UInt64) : AMap String UInt64 :=
  names.foldl (fun m n => m.insert n (value n)) AMap.empty

/-- `MakeGasMap`, `FillGasMap` (`gasSchedule.go` 112-128) and the functions for the sections (130-754). -/
def makeGasMap (value lock : UInt64) : ScheduleMap :=
  [("BuiltInCost", fill builtInFilled fun _ => value),
   ("BaseOperationCost", fill baseFilled fun _ => value),
   ("ElrondAPICost", fill apiFields fun n => if n = "AsyncCallbackGasLock" then lock else value),
   ("EthAPICost", fill ethFields fun _ => value),
   ("BigIntAPICost", fill bigIntFields fun _ => value),
   ("CryptoAPICost", fill cryptoFields fun _ => value),
   ("WASMOpcodeCost", fill opcodeFields fun _ => value)].foldl (fun m p => m.insert p.1 p.2) AMap.empty

end Arwen.Config
