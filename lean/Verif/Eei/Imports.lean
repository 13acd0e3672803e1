import Verif.Eei.Api
/-
The functions that contracts can import: how the host collects them for Wasmer (`wasmer/import.go`), and which ones it collects
(`arwen/elrondapi/*.go`, `arwen/cryptoapi/cryptoei.go`, `arwen/host/arwen.go`).

Simplifications: a Go function given to `Append` is described by what `reflect` tells about its type and by the API call that it
makes of its arguments; the pointer to the C wrapper is left out (it has the name of the Go function everywhere).
-/
namespace Arwen
namespace Linking

/-- types of WebAssembly values that imported functions may have (`wasmer/bridge.go`, `cWasmI32`, `cWasmI64`) -/
inductive WasmType
  | i32 | i64
  deriving DecidableEq, Repr

/-- arguments of an imported function -/
inductive WasmVal
  | i32 (v : Int32) | i64 (v : Int64)
  deriving DecidableEq, Repr

def WasmVal.type : WasmVal → WasmType
  | .i32 _ => .i32
  | .i64 _ => .i64

/-- `reflect.Kind`, as far as it is looked at -/
inductive GoKind
  | int32 | int64 | unsafePointer | other
  deriving DecidableEq, Repr

def WasmType.kind : WasmType → GoKind
  | .i32 => .int32
  | .i64 => .int64

/-- a value given to `Append`: what `reflect` tells about it, and the API call that it makes of its arguments -/
structure GoValue where
  isFunc : Bool
  inputs : List GoKind
  outputs : List GoKind
  run : List WasmVal → Option EeiCall

/-- a Go function of parameters of these types, curried -/
def Curried : List WasmType → Type
  | [] => EeiCall
  | .i32 :: l => Int32 → Curried l
  | .i64 :: l => Int64 → Curried l

/-- apply it to arguments of the right number and types -/
def applyTo : (l : List WasmType) → Curried l → List WasmVal → Option EeiCall
  | [], c, [] => some c
  | .i32 :: l, f, .i32 v :: args => applyTo l (f v) args
  | .i64 :: l, f, .i64 v :: args => applyTo l (f v) args
  | _, _, _ => none

/-- a Go function of the API: the context comes first -/
def GoValue.ofSig (l : List WasmType) (out : Option WasmType) (f : Curried l) : GoValue :=
  ⟨true, .unsafePointer :: l.map WasmType.kind, out.toList.map WasmType.kind, applyTo l f⟩

/-- `Import` (`wasmer/import.go` 34-54) -/
structure Import where
  run : List WasmVal → Option EeiCall
  wasmInputs : List WasmType
  wasmOutputs : List WasmType
  namespace_ : String

/-- `Imports` (`wasmer/import.go` 56-63) -/
structure Imports where
  imports : AMap String (AMap String Import)
  currentNamespace : String

/-- `NewImports` (`wasmer/import.go` 66-71) -/
def Imports.new : Imports := ⟨.empty, "env"⟩

/-- `Namespace` (`wasmer/import.go` 74-78) -/
def Imports.inNamespace (t : Imports) (ns : String) : Imports := { t with currentNamespace := ns }

/-- `Count` (`wasmer/import.go` 80-86) -/
def Imports.count (t : Imports) : Nat := t.imports.entries.foldl (fun n p => n + p.2.entries.length) 0

/-- `Names` (`wasmer/import.go` 88-97); the order is not determined -/
def Imports.names (t : Imports) : List String := t.imports.entries.flatMap (fun p => p.2.entries.map Prod.fst)

/-- the reasons for which `Append` refuses (`wasmer/import.go` 104-147) -/
inductive ImportError
  | notAFunction | noContext | badContext | badInput | manyOutputs | badOutput
  deriving DecidableEq, Repr

/-- the type of a parameter or result (`wasmer/import.go` 127-134, 140-147) -/
def wasmType (e : ImportError) : GoKind → Except ImportError WasmType
  | .int32 => .ok .i32
  | .int64 => .ok .i64
  | _ => .error e

/-- the types of the parameters (`wasmer/import.go` 124-135) -/
def wasmInputsOf : List GoKind → Except ImportError (List WasmType)
  | [] => .ok []
  | k :: l =>
    match wasmType .badInput k with
    | .error e => .error e
    | .ok t => (wasmInputsOf l).map (t :: ·)

/-- the types of the results (`wasmer/import.go` 137-148) -/
def wasmOutputsOf : List GoKind → Except ImportError (List WasmType)
  | [] => .ok []
  | [k] => (wasmType .badOutput k).map ([·])
  | _ => .error .manyOutputs

/-- the import is noted in the current namespace, in place of one of the same name (`wasmer/import.go` 150-165) -/
def Imports.put (t : Imports) (name : String) (i : Import) : Imports :=
  let m := (t.imports.get? t.currentNamespace).getD .empty
  { t with imports := t.imports.insert t.currentNamespace (m.insert name i) }

/-- `Append` (`wasmer/import.go` 100-168) -/
def Imports.append (t : Imports) (name : String) (f : GoValue) : Except ImportError Imports :=
  if !f.isFunc then .error .notAFunction
  else match f.inputs with
    | [] => .error .noContext
    | k :: ks =>
      if k ≠ .unsafePointer then .error .badContext
      else match wasmInputsOf ks, wasmOutputsOf f.outputs with
        | .error e, _ => .error e
        | _, .error e => .error e
        | .ok ins, .ok outs => .ok (t.put name ⟨f.run, ins, outs, t.currentNamespace⟩)

/-- a run of registrations, ended by the first refusal (e.g. `arwen/elrondapi/elrondei.go` 119-462) -/
def Imports.appendAll (t : Imports) : List (String × GoValue) → Except ImportError Imports
  | [] => .ok t
  | (name, f) :: l =>
    match t.append name f with
    | .error e => .error e
    | .ok t => t.appendAll l

/-- `ElrondEIImports` (`arwen/elrondapi/elrondei.go` 119-462); the registrations of `createAsyncCall` and
`setAsyncContextCallback` are commented out (179-187). -/
def elrondEIImports : List (String × GoValue) := [
  ("getSCAddress", .ofSig [.i32] none .getSCAddress),
  ("getOwnerAddress", .ofSig [.i32] none .getOwnerAddress),
  ("getShardOfAddress", .ofSig [.i32] (some .i32) .getShardOfAddress),
  ("isSmartContract", .ofSig [.i32] (some .i32) .isSmartContract),
  ("getExternalBalance", .ofSig [.i32, .i32] none .getExternalBalance),
  ("getBlockHash", .ofSig [.i64, .i32] (some .i32) .getBlockHash),
  ("transferValue", .ofSig [.i32, .i32, .i32, .i32] (some .i32) .transferValue),
  ("transferESDTExecute", .ofSig [.i32, .i32, .i32, .i32, .i64, .i32, .i32, .i32, .i32, .i32] (some .i32) .transferESDTExecute),
  ("transferESDTNFTExecute", .ofSig [.i32, .i32, .i32, .i32, .i64, .i64, .i32, .i32, .i32, .i32, .i32] (some .i32) .transferESDTNFTExecute),
  ("transferESDT", .ofSig [.i32, .i32, .i32, .i32, .i64, .i32, .i32] (some .i32) .transferESDT),
  ("transferValueExecute", .ofSig [.i32, .i32, .i64, .i32, .i32, .i32, .i32, .i32] (some .i32) .transferValueExecute),
  ("asyncCall", .ofSig [.i32, .i32, .i32, .i32] none .asyncCall),
  ("getArgumentLength", .ofSig [.i32] (some .i32) .getArgumentLength),
  ("getArgument", .ofSig [.i32, .i32] (some .i32) .getArgument),
  ("getFunction", .ofSig [.i32] (some .i32) .getFunction),
  ("getNumArguments", .ofSig [] (some .i32) .getNumArguments),
  ("storageStore", .ofSig [.i32, .i32, .i32, .i32] (some .i32) .storageStore),
  ("storageLoadLength", .ofSig [.i32, .i32] (some .i32) .storageLoadLength),
  ("storageLoad", .ofSig [.i32, .i32, .i32] (some .i32) .storageLoad),
  ("storageLoadFromAddress", .ofSig [.i32, .i32, .i32, .i32] (some .i32) .storageLoadFromAddress),
  ("getStorageLock", .ofSig [.i32, .i32] (some .i64) .getStorageLock),
  ("setStorageLock", .ofSig [.i32, .i32, .i64] (some .i32) .setStorageLock),
  ("isStorageLocked", .ofSig [.i32, .i32] (some .i32) .isStorageLocked),
  ("clearStorageLock", .ofSig [.i32, .i32] (some .i32) .clearStorageLock),
  ("getCaller", .ofSig [.i32] none .getCaller),
  ("checkNoPayment", .ofSig [] none .checkNoPayment),
  ("getCallValue", .ofSig [.i32] (some .i32) .callValue),
  ("getESDTValue", .ofSig [.i32] (some .i32) .getESDTValue),
  ("getESDTTokenName", .ofSig [.i32] (some .i32) .getESDTTokenName),
  ("getESDTTokenType", .ofSig [] (some .i32) .getESDTTokenType),
  ("getESDTTokenNonce", .ofSig [] (some .i64) .getESDTTokenNonce),
  ("getCurrentESDTNFTNonce", .ofSig [.i32, .i32, .i32] (some .i64) .getCurrentESDTNFTNonce),
  ("getCallValueTokenName", .ofSig [.i32, .i32] (some .i32) .getCallValueTokenName),
  ("writeLog", .ofSig [.i32, .i32, .i32, .i32] none .writeLog),
  ("writeEventLog", .ofSig [.i32, .i32, .i32, .i32, .i32] none .writeEventLog),
  ("finish", .ofSig [.i32, .i32] none .finish),
  ("signalError", .ofSig [.i32, .i32] none .signalError),
  ("getBlockTimestamp", .ofSig [] (some .i64) .getBlockTimestamp),
  ("getBlockNonce", .ofSig [] (some .i64) .getBlockNonce),
  ("getBlockRound", .ofSig [] (some .i64) .getBlockRound),
  ("getBlockEpoch", .ofSig [] (some .i64) .getBlockEpoch),
  ("getBlockRandomSeed", .ofSig [.i32] none .getBlockRandomSeed),
  ("getStateRootHash", .ofSig [.i32] none .getStateRootHash),
  ("getPrevBlockTimestamp", .ofSig [] (some .i64) .getPrevBlockTimestamp),
  ("getPrevBlockNonce", .ofSig [] (some .i64) .getPrevBlockNonce),
  ("getPrevBlockRound", .ofSig [] (some .i64) .getPrevBlockRound),
  ("getPrevBlockEpoch", .ofSig [] (some .i64) .getPrevBlockEpoch),
  ("getPrevBlockRandomSeed", .ofSig [.i32] none .getPrevBlockRandomSeed),
  ("getOriginalTxHash", .ofSig [.i32] none .getOriginalTxHash),
  ("getGasLeft", .ofSig [] (some .i64) .getGasLeft),
  ("executeOnDestContext", .ofSig [.i64, .i32, .i32, .i32, .i32, .i32, .i32, .i32] (some .i32) .executeOnDestContext),
  ("executeOnDestContextByCaller", .ofSig [.i64, .i32, .i32, .i32, .i32, .i32, .i32, .i32] (some .i32) .executeOnDestContextByCaller),
  ("executeOnSameContext", .ofSig [.i64, .i32, .i32, .i32, .i32, .i32, .i32, .i32] (some .i32) .executeOnSameContext),
  ("delegateExecution", .ofSig [.i64, .i32, .i32, .i32, .i32, .i32, .i32] (some .i32) .delegateExecution),
  ("createContract", .ofSig [.i64, .i32, .i32, .i32, .i32, .i32, .i32, .i32, .i32] (some .i32) .createContract),
  ("deployFromSourceContract", .ofSig [.i64, .i32, .i32, .i32, .i32, .i32, .i32, .i32] (some .i32) .deployFromSourceContract),
  ("upgradeContract", .ofSig [.i32, .i64, .i32, .i32, .i32, .i32, .i32, .i32, .i32] none .upgradeContract),
  ("upgradeFromSourceContract", .ofSig [.i32, .i64, .i32, .i32, .i32, .i32, .i32, .i32] none .upgradeFromSourceContract),
  ("executeReadOnly", .ofSig [.i64, .i32, .i32, .i32, .i32, .i32, .i32] (some .i32) .executeReadOnly),
  ("getNumReturnData", .ofSig [] (some .i32) .getNumReturnData),
  ("getReturnDataSize", .ofSig [.i32] (some .i32) .getReturnDataSize),
  ("getReturnData", .ofSig [.i32, .i32] (some .i32) .getReturnData),
  ("getESDTBalance", .ofSig [.i32, .i32, .i32, .i64, .i32] (some .i32) .getESDTBalance),
  ("getESDTTokenData", .ofSig [.i32, .i32, .i32, .i64, .i32, .i32, .i32, .i32, .i32, .i32, .i32, .i32] (some .i32) (fun a b c d e f g h i j k l =>
    .getESDTTokenData a b c d ⟨e, f, g, h, i, j, k, l⟩)),
  ("getESDTNFTNameLength", .ofSig [.i32, .i32, .i32, .i64] (some .i32) .getESDTNFTNameLength),
  ("getESDTNFTAttributeLength", .ofSig [.i32, .i32, .i32, .i64] (some .i32) .getESDTNFTAttributeLength),
  ("getESDTNFTURILength", .ofSig [.i32, .i32, .i32, .i64] (some .i32) .getESDTNFTURILength)]

/-- `BigIntImports` (`arwen/elrondapi/bigIntOps.go` 68-251) -/
def bigIntImports : List (String × GoValue) := [
  ("bigIntNew", .ofSig [.i64] (some .i32) .bigIntNew),
  ("bigIntUnsignedByteLength", .ofSig [.i32] (some .i32) (.bigIntByteLength false)),
  ("bigIntSignedByteLength", .ofSig [.i32] (some .i32) (.bigIntByteLength true)),
  ("bigIntGetUnsignedBytes", .ofSig [.i32, .i32] (some .i32) (.bigIntGetBytes false)),
  ("bigIntGetSignedBytes", .ofSig [.i32, .i32] (some .i32) (.bigIntGetBytes true)),
  ("bigIntSetUnsignedBytes", .ofSig [.i32, .i32, .i32] none (.bigIntSetBytes false)),
  ("bigIntSetSignedBytes", .ofSig [.i32, .i32, .i32] none (.bigIntSetBytes true)),
  ("bigIntIsInt64", .ofSig [.i32] (some .i32) .bigIntIsInt64),
  ("bigIntGetInt64", .ofSig [.i32] (some .i64) .bigIntGetInt64),
  ("bigIntSetInt64", .ofSig [.i32, .i64] none .bigIntSetInt64),
  ("bigIntAdd", .ofSig [.i32, .i32, .i32] none (.bigIntBin .add)),
  ("bigIntSub", .ofSig [.i32, .i32, .i32] none (.bigIntBin .sub)),
  ("bigIntMul", .ofSig [.i32, .i32, .i32] none (.bigIntBin .mul)),
  ("bigIntTDiv", .ofSig [.i32, .i32, .i32] none (.bigIntBin .tdiv)),
  ("bigIntTMod", .ofSig [.i32, .i32, .i32] none (.bigIntBin .tmod)),
  ("bigIntEDiv", .ofSig [.i32, .i32, .i32] none (.bigIntBin .ediv)),
  ("bigIntEMod", .ofSig [.i32, .i32, .i32] none (.bigIntBin .emod)),
  ("bigIntAbs", .ofSig [.i32, .i32] none (.bigIntUn .abs)),
  ("bigIntNeg", .ofSig [.i32, .i32] none (.bigIntUn .neg)),
  ("bigIntSign", .ofSig [.i32] (some .i32) .bigIntSign),
  ("bigIntCmp", .ofSig [.i32, .i32] (some .i32) .bigIntCmp),
  ("bigIntNot", .ofSig [.i32, .i32] none (.bigIntUn .not)),
  ("bigIntAnd", .ofSig [.i32, .i32, .i32] none (.bigIntBin .and)),
  ("bigIntOr", .ofSig [.i32, .i32, .i32] none (.bigIntBin .or)),
  ("bigIntXor", .ofSig [.i32, .i32, .i32] none (.bigIntBin .xor)),
  ("bigIntShr", .ofSig [.i32, .i32, .i32] none (.bigIntShift .shr)),
  ("bigIntShl", .ofSig [.i32, .i32, .i32] none (.bigIntShift .shl)),
  ("bigIntFinishUnsigned", .ofSig [.i32] none (.bigIntFinish false)),
  ("bigIntFinishSigned", .ofSig [.i32] none (.bigIntFinish true)),
  ("bigIntStorageStoreUnsigned", .ofSig [.i32, .i32, .i32] (some .i32) .bigIntStorageStoreUnsigned),
  ("bigIntStorageLoadUnsigned", .ofSig [.i32, .i32, .i32] (some .i32) .bigIntStorageLoadUnsigned),
  ("bigIntGetUnsignedArgument", .ofSig [.i32, .i32] none (.bigIntGetArgument false)),
  ("bigIntGetSignedArgument", .ofSig [.i32, .i32] none (.bigIntGetArgument true)),
  ("bigIntGetCallValue", .ofSig [.i32] none .bigIntGetCallValue),
  ("bigIntGetESDTCallValue", .ofSig [.i32] none .bigIntGetESDTCallValue),
  ("bigIntGetESDTExternalBalance", .ofSig [.i32, .i32, .i32, .i64, .i32] none .bigIntGetESDTExternalBalance),
  ("bigIntGetExternalBalance", .ofSig [.i32, .i32] none .bigIntGetExternalBalance)]

/-- `SmallIntImports` (`arwen/elrondapi/smallIntOps.go` 40-100) -/
def smallIntImports : List (String × GoValue) := [
  ("smallIntGetUnsignedArgument", .ofSig [.i32] (some .i64) (.smallIntGetArgument false)),
  ("smallIntGetSignedArgument", .ofSig [.i32] (some .i64) (.smallIntGetArgument true)),
  ("smallIntFinishUnsigned", .ofSig [.i64] none (.smallIntFinish false)),
  ("smallIntFinishSigned", .ofSig [.i64] none (.smallIntFinish true)),
  ("smallIntStorageStoreUnsigned", .ofSig [.i32, .i32, .i64] (some .i32) (.smallIntStorageStore false)),
  ("smallIntStorageStoreSigned", .ofSig [.i32, .i32, .i64] (some .i32) (.smallIntStorageStore true)),
  ("smallIntStorageLoadUnsigned", .ofSig [.i32, .i32] (some .i64) (.smallIntStorageLoad false)),
  ("smallIntStorageLoadSigned", .ofSig [.i32, .i32] (some .i64) (.smallIntStorageLoad true)),
  ("int64getArgument", .ofSig [.i32] (some .i64) .int64getArgument),
  ("int64storageStore", .ofSig [.i32, .i32, .i64] (some .i32) .int64storageStore),
  ("int64storageLoad", .ofSig [.i32, .i32] (some .i64) .int64storageLoad),
  ("int64finish", .ofSig [.i64] none .int64finish)]

/-- `CryptoImports` (`arwen/cryptoapi/cryptoei.go` 36-64) -/
def cryptoImports : List (String × GoValue) := [
  ("sha256", .ofSig [.i32, .i32, .i32] (some .i32) (.hash .sha256)),
  ("keccak256", .ofSig [.i32, .i32, .i32] (some .i32) (.hash .keccak256)),
  ("ripemd160", .ofSig [.i32, .i32, .i32] (some .i32) (.hash .ripemd160)),
  ("verifyBLS", .ofSig [.i32, .i32, .i32, .i32] (some .i32) .verifyBLS),
  ("verifyEd25519", .ofSig [.i32, .i32, .i32, .i32] (some .i32) .verifyEd25519),
  ("verifySecp256k1", .ofSig [.i32, .i32, .i32, .i32, .i32] (some .i32) .verifySecp256k1)]

/-- the imports of a host (`NewArwenVM`, `arwen/host/arwen.go` 92-110, and the heads of the four functions) -/
def hostImports : Except ImportError Imports := do
  let t ← (Imports.new.inNamespace "env").appendAll elrondEIImports
  let t ← (t.inNamespace "env").appendAll bigIntImports
  let t ← (t.inNamespace "env").appendAll smallIntImports
  (t.inNamespace "env").appendAll cryptoImports

/-- the import of a name, in a namespace -/
def Imports.lookup (t : Imports) (ns name : String) : Option Import := (t.imports.get? ns).bind (·.get? name)

/-- the API call that a contract makes by calling an imported function -/
def Imports.call (t : Imports) (name : String) (args : List WasmVal) : Option EeiCall :=
  (t.lookup "env" name).bind (·.run args)

/-- The environment in which contracts call the API by name: what is not found in the table cannot be linked. -/
def linked {χ : Type} (t : Imports) (E : Env χ (String × List WasmVal)) : Env χ (String × List WasmVal) :=
  { E with
    api := fun p => match t.call p.1 p.2 with
      | some c => eei E c
      | none => .panic
    apiNames := fun b => t.names.any (fun n => n.toUTF8.toList = b) }

end Linking
end Arwen
