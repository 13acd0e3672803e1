import Verif.Eei.Imports
/-
The API that contracts see: the name and the arguments of every call.
-/
namespace Arwen.Spec
open Arwen.Linking

/-- How a contract makes an API call: the function that it imports, and the arguments. The two functions for groups of asynchronous
calls cannot be imported. -/
def asCalled : EeiCall → Option (String × List WasmVal)
  | .createAsyncCall .. => none
  | .setAsyncContextCallback .. => none
  | .getSCAddress a => some ("getSCAddress", [.i32 a])
  | .getOwnerAddress a => some ("getOwnerAddress", [.i32 a])
  | .getShardOfAddress a => some ("getShardOfAddress", [.i32 a])
  | .isSmartContract a => some ("isSmartContract", [.i32 a])
  | .getExternalBalance a b => some ("getExternalBalance", [.i32 a, .i32 b])
  | .getBlockHash a b => some ("getBlockHash", [.i64 a, .i32 b])
  | .transferValue a b c d => some ("transferValue", [.i32 a, .i32 b, .i32 c, .i32 d])
  | .transferESDTExecute a b c d e f g h i j => some ("transferESDTExecute", [.i32 a, .i32 b, .i32 c, .i32 d, .i64 e, .i32 f, .i32 g, .i32 h, .i32 i, .i32 j])
  | .transferESDTNFTExecute a b c d e f g h i j k => some ("transferESDTNFTExecute", [.i32 a, .i32 b, .i32 c, .i32 d, .i64 e, .i64 f, .i32 g, .i32 h, .i32 i, .i32 j, .i32 k])
  | .transferESDT a b c d e f g => some ("transferESDT", [.i32 a, .i32 b, .i32 c, .i32 d, .i64 e, .i32 f, .i32 g])
  | .transferValueExecute a b c d e f g h => some ("transferValueExecute", [.i32 a, .i32 b, .i64 c, .i32 d, .i32 e, .i32 f, .i32 g, .i32 h])
  | .asyncCall a b c d => some ("asyncCall", [.i32 a, .i32 b, .i32 c, .i32 d])
  | .getArgumentLength a => some ("getArgumentLength", [.i32 a])
  | .getArgument a b => some ("getArgument", [.i32 a, .i32 b])
  | .getFunction a => some ("getFunction", [.i32 a])
  | .getNumArguments => some ("getNumArguments", [])
  | .storageStore a b c d => some ("storageStore", [.i32 a, .i32 b, .i32 c, .i32 d])
  | .storageLoadLength a b => some ("storageLoadLength", [.i32 a, .i32 b])
  | .storageLoad a b c => some ("storageLoad", [.i32 a, .i32 b, .i32 c])
  | .storageLoadFromAddress a b c d => some ("storageLoadFromAddress", [.i32 a, .i32 b, .i32 c, .i32 d])
  | .getStorageLock a b => some ("getStorageLock", [.i32 a, .i32 b])
  | .setStorageLock a b c => some ("setStorageLock", [.i32 a, .i32 b, .i64 c])
  | .isStorageLocked a b => some ("isStorageLocked", [.i32 a, .i32 b])
  | .clearStorageLock a b => some ("clearStorageLock", [.i32 a, .i32 b])
  | .getCaller a => some ("getCaller", [.i32 a])
  | .checkNoPayment => some ("checkNoPayment", [])
  | .callValue a => some ("getCallValue", [.i32 a])
  | .getESDTValue a => some ("getESDTValue", [.i32 a])
  | .getESDTTokenName a => some ("getESDTTokenName", [.i32 a])
  | .getESDTTokenType => some ("getESDTTokenType", [])
  | .getESDTTokenNonce => some ("getESDTTokenNonce", [])
  | .getCurrentESDTNFTNonce a b c => some ("getCurrentESDTNFTNonce", [.i32 a, .i32 b, .i32 c])
  | .getCallValueTokenName a b => some ("getCallValueTokenName", [.i32 a, .i32 b])
  | .writeLog a b c d => some ("writeLog", [.i32 a, .i32 b, .i32 c, .i32 d])
  | .writeEventLog a b c d e => some ("writeEventLog", [.i32 a, .i32 b, .i32 c, .i32 d, .i32 e])
  | .finish a b => some ("finish", [.i32 a, .i32 b])
  | .signalError a b => some ("signalError", [.i32 a, .i32 b])
  | .getBlockTimestamp => some ("getBlockTimestamp", [])
  | .getBlockNonce => some ("getBlockNonce", [])
  | .getBlockRound => some ("getBlockRound", [])
  | .getBlockEpoch => some ("getBlockEpoch", [])
  | .getBlockRandomSeed a => some ("getBlockRandomSeed", [.i32 a])
  | .getStateRootHash a => some ("getStateRootHash", [.i32 a])
  | .getPrevBlockTimestamp => some ("getPrevBlockTimestamp", [])
  | .getPrevBlockNonce => some ("getPrevBlockNonce", [])
  | .getPrevBlockRound => some ("getPrevBlockRound", [])
  | .getPrevBlockEpoch => some ("getPrevBlockEpoch", [])
  | .getPrevBlockRandomSeed a => some ("getPrevBlockRandomSeed", [.i32 a])
  | .getOriginalTxHash a => some ("getOriginalTxHash", [.i32 a])
  | .getGasLeft => some ("getGasLeft", [])
  | .executeOnDestContext a b c d e f g h => some ("executeOnDestContext", [.i64 a, .i32 b, .i32 c, .i32 d, .i32 e, .i32 f, .i32 g, .i32 h])
  | .executeOnDestContextByCaller a b c d e f g h => some ("executeOnDestContextByCaller", [.i64 a, .i32 b, .i32 c, .i32 d, .i32 e, .i32 f, .i32 g, .i32 h])
  | .executeOnSameContext a b c d e f g h => some ("executeOnSameContext", [.i64 a, .i32 b, .i32 c, .i32 d, .i32 e, .i32 f, .i32 g, .i32 h])
  | .delegateExecution a b c d e f g => some ("delegateExecution", [.i64 a, .i32 b, .i32 c, .i32 d, .i32 e, .i32 f, .i32 g])
  | .createContract a b c d e f g h i => some ("createContract", [.i64 a, .i32 b, .i32 c, .i32 d, .i32 e, .i32 f, .i32 g, .i32 h, .i32 i])
  | .deployFromSourceContract a b c d e f g h => some ("deployFromSourceContract", [.i64 a, .i32 b, .i32 c, .i32 d, .i32 e, .i32 f, .i32 g, .i32 h])
  | .upgradeContract a b c d e f g h i => some ("upgradeContract", [.i32 a, .i64 b, .i32 c, .i32 d, .i32 e, .i32 f, .i32 g, .i32 h, .i32 i])
  | .upgradeFromSourceContract a b c d e f g h => some ("upgradeFromSourceContract", [.i32 a, .i64 b, .i32 c, .i32 d, .i32 e, .i32 f, .i32 g, .i32 h])
  | .executeReadOnly a b c d e f g => some ("executeReadOnly", [.i64 a, .i32 b, .i32 c, .i32 d, .i32 e, .i32 f, .i32 g])
  | .getNumReturnData => some ("getNumReturnData", [])
  | .getReturnDataSize a => some ("getReturnDataSize", [.i32 a])
  | .getReturnData a b => some ("getReturnData", [.i32 a, .i32 b])
  | .getESDTBalance a b c d e => some ("getESDTBalance", [.i32 a, .i32 b, .i32 c, .i64 d, .i32 e])
  | .getESDTTokenData a b c d ⟨e, f, g, h, i, j, k, l⟩ => some ("getESDTTokenData", [.i32 a, .i32 b, .i32 c, .i64 d, .i32 e, .i32 f, .i32 g, .i32 h, .i32 i, .i32 j, .i32 k, .i32 l])
  | .getESDTNFTNameLength a b c d => some ("getESDTNFTNameLength", [.i32 a, .i32 b, .i32 c, .i64 d])
  | .getESDTNFTAttributeLength a b c d => some ("getESDTNFTAttributeLength", [.i32 a, .i32 b, .i32 c, .i64 d])
  | .getESDTNFTURILength a b c d => some ("getESDTNFTURILength", [.i32 a, .i32 b, .i32 c, .i64 d])
  | .bigIntNew a => some ("bigIntNew", [.i64 a])
  | .bigIntByteLength false a => some ("bigIntUnsignedByteLength", [.i32 a])
  | .bigIntByteLength true a => some ("bigIntSignedByteLength", [.i32 a])
  | .bigIntGetBytes false a b => some ("bigIntGetUnsignedBytes", [.i32 a, .i32 b])
  | .bigIntGetBytes true a b => some ("bigIntGetSignedBytes", [.i32 a, .i32 b])
  | .bigIntSetBytes false a b c => some ("bigIntSetUnsignedBytes", [.i32 a, .i32 b, .i32 c])
  | .bigIntSetBytes true a b c => some ("bigIntSetSignedBytes", [.i32 a, .i32 b, .i32 c])
  | .bigIntIsInt64 a => some ("bigIntIsInt64", [.i32 a])
  | .bigIntGetInt64 a => some ("bigIntGetInt64", [.i32 a])
  | .bigIntSetInt64 a b => some ("bigIntSetInt64", [.i32 a, .i64 b])
  | .bigIntBin .add a b c => some ("bigIntAdd", [.i32 a, .i32 b, .i32 c])
  | .bigIntBin .sub a b c => some ("bigIntSub", [.i32 a, .i32 b, .i32 c])
  | .bigIntBin .mul a b c => some ("bigIntMul", [.i32 a, .i32 b, .i32 c])
  | .bigIntBin .tdiv a b c => some ("bigIntTDiv", [.i32 a, .i32 b, .i32 c])
  | .bigIntBin .tmod a b c => some ("bigIntTMod", [.i32 a, .i32 b, .i32 c])
  | .bigIntBin .ediv a b c => some ("bigIntEDiv", [.i32 a, .i32 b, .i32 c])
  | .bigIntBin .emod a b c => some ("bigIntEMod", [.i32 a, .i32 b, .i32 c])
  | .bigIntUn .abs a b => some ("bigIntAbs", [.i32 a, .i32 b])
  | .bigIntUn .neg a b => some ("bigIntNeg", [.i32 a, .i32 b])
  | .bigIntSign a => some ("bigIntSign", [.i32 a])
  | .bigIntCmp a b => some ("bigIntCmp", [.i32 a, .i32 b])
  | .bigIntUn .not a b => some ("bigIntNot", [.i32 a, .i32 b])
  | .bigIntBin .and a b c => some ("bigIntAnd", [.i32 a, .i32 b, .i32 c])
  | .bigIntBin .or a b c => some ("bigIntOr", [.i32 a, .i32 b, .i32 c])
  | .bigIntBin .xor a b c => some ("bigIntXor", [.i32 a, .i32 b, .i32 c])
  | .bigIntShift .shr a b c => some ("bigIntShr", [.i32 a, .i32 b, .i32 c])
  | .bigIntShift .shl a b c => some ("bigIntShl", [.i32 a, .i32 b, .i32 c])
  | .bigIntFinish false a => some ("bigIntFinishUnsigned", [.i32 a])
  | .bigIntFinish true a => some ("bigIntFinishSigned", [.i32 a])
  | .bigIntStorageStoreUnsigned a b c => some ("bigIntStorageStoreUnsigned", [.i32 a, .i32 b, .i32 c])
  | .bigIntStorageLoadUnsigned a b c => some ("bigIntStorageLoadUnsigned", [.i32 a, .i32 b, .i32 c])
  | .bigIntGetArgument false a b => some ("bigIntGetUnsignedArgument", [.i32 a, .i32 b])
  | .bigIntGetArgument true a b => some ("bigIntGetSignedArgument", [.i32 a, .i32 b])
  | .bigIntGetCallValue a => some ("bigIntGetCallValue", [.i32 a])
  | .bigIntGetESDTCallValue a => some ("bigIntGetESDTCallValue", [.i32 a])
  | .bigIntGetESDTExternalBalance a b c d e => some ("bigIntGetESDTExternalBalance", [.i32 a, .i32 b, .i32 c, .i64 d, .i32 e])
  | .bigIntGetExternalBalance a b => some ("bigIntGetExternalBalance", [.i32 a, .i32 b])
  | .smallIntGetArgument false a => some ("smallIntGetUnsignedArgument", [.i32 a])
  | .smallIntGetArgument true a => some ("smallIntGetSignedArgument", [.i32 a])
  | .smallIntFinish false a => some ("smallIntFinishUnsigned", [.i64 a])
  | .smallIntFinish true a => some ("smallIntFinishSigned", [.i64 a])
  | .smallIntStorageStore false a b c => some ("smallIntStorageStoreUnsigned", [.i32 a, .i32 b, .i64 c])
  | .smallIntStorageStore true a b c => some ("smallIntStorageStoreSigned", [.i32 a, .i32 b, .i64 c])
  | .smallIntStorageLoad false a b => some ("smallIntStorageLoadUnsigned", [.i32 a, .i32 b])
  | .smallIntStorageLoad true a b => some ("smallIntStorageLoadSigned", [.i32 a, .i32 b])
  | .int64getArgument a => some ("int64getArgument", [.i32 a])
  | .int64storageStore a b c => some ("int64storageStore", [.i32 a, .i32 b, .i64 c])
  | .int64storageLoad a b => some ("int64storageLoad", [.i32 a, .i32 b])
  | .int64finish a => some ("int64finish", [.i64 a])
  | .hash .sha256 a b c => some ("sha256", [.i32 a, .i32 b, .i32 c])
  | .hash .keccak256 a b c => some ("keccak256", [.i32 a, .i32 b, .i32 c])
  | .hash .ripemd160 a b c => some ("ripemd160", [.i32 a, .i32 b, .i32 c])
  | .verifyBLS a b c d => some ("verifyBLS", [.i32 a, .i32 b, .i32 c, .i32 d])
  | .verifyEd25519 a b c d => some ("verifyEd25519", [.i32 a, .i32 b, .i32 c, .i32 d])
  | .verifySecp256k1 a b c d e => some ("verifySecp256k1", [.i32 a, .i32 b, .i32 c, .i32 d, .i32 e])

/-- the call belongs to a group of asynchronous calls -/
def ForGroups : EeiCall → Prop
  | .createAsyncCall .. => True
  | .setAsyncContextCallback .. => True
  | _ => False

/-- a Go value that can be imported: a function of the context, with parameters `int32` or `int64`, and at most one such result -/
structure Importable (f : GoValue) : Prop where
  func : f.isFunc = true
  inputs : ∃ ks, f.inputs = .unsafePointer :: ks ∧ ∀ k ∈ ks, k = .int32 ∨ k = .int64
  outputs : f.outputs.length ≤ 1 ∧ ∀ k ∈ f.outputs, k = .int32 ∨ k = .int64

variable {χ A : Type}

/-- no contract that is running or waiting has a group of asynchronous calls -/
def NoGroups (s : St χ A) : Prop :=
  s.rt.cur.asyncContextInfo.contexts.size = 0 ∧ ∀ c ∈ s.rt.stack, c.asyncContextInfo.contexts.size = 0

end Arwen.Spec
