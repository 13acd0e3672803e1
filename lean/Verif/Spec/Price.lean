import Verif.Eei.Api
/-
C69: what the functions of the API cost.
-/
namespace Arwen.Spec
open Arwen Arwen.Eei

/-- The entry of the gas schedule for the operation (`config/gasCost.go` 93-129). -/
def binEntry : BinOp → ApiCost
  | .add => .bigIntAdd | .sub => .bigIntSub | .mul => .bigIntMul | .tdiv => .bigIntTDiv | .tmod => .bigIntTMod | .ediv => .bigIntEDiv
  | .emod => .bigIntEMod | .and => .bigIntAnd | .or => .bigIntOr | .xor => .bigIntXor
def unEntry : UnOp → ApiCost
  | .abs => .bigIntAbs | .neg => .bigIntNeg | .not => .bigIntNot
def shiftEntry : ShiftOp → ApiCost
  | .shr => .bigIntShr | .shl => .bigIntShl
def hashEntry : HashFn → ApiCost
  | .sha256 => .sha256 | .keccak256 => .keccak256 | .ripemd160 => .ripemd160

/-- The entry of the gas schedule with the name of the function or, if there is none with its name, of the function whose work it does.
The two functions for groups of asynchronous calls have none. -/
def ownEntry : EeiCall → Option ApiCost
  | .getGasLeft => some .getGasLeft
  | .getSCAddress .. => some .getSCAddress
  | .getOwnerAddress .. => some .getOwnerAddress
  | .getShardOfAddress .. => some .getShardOfAddress
  | .isSmartContract .. => some .isSmartContract
  | .signalError .. => some .signalError
  | .getExternalBalance .. => some .getExternalBalance
  | .getBlockHash .. | .getOriginalTxHash .. => some .getBlockHash
  | .getESDTBalance .. | .getESDTNFTNameLength .. | .getESDTNFTAttributeLength .. | .getESDTNFTURILength .. | .getESDTTokenData .. =>
    some .getExternalBalance
  | .transferValue .. | .transferValueExecute .. | .transferESDT .. | .transferESDTExecute .. | .transferESDTNFTExecute .. =>
    some .transferValue
  | .createAsyncCall .. | .setAsyncContextCallback .. => none
  | .upgradeContract .. | .upgradeFromSourceContract .. | .createContract .. | .deployFromSourceContract .. => some .createContract
  | .asyncCall .. => some .asyncCallStep
  | .getArgumentLength .. | .getArgument .. => some .getArgument
  | .getFunction .. => some .getFunction
  | .getNumArguments => some .getNumArguments
  | .storageStore .. => some .storageStore
  | .storageLoadLength .. | .storageLoadFromAddress .. | .storageLoad .. | .getStorageLock .. | .isStorageLocked .. | .getCurrentESDTNFTNonce .. =>
    some .storageLoad
  | .setStorageLock .. | .clearStorageLock .. => some .int64StorageStore
  | .getCaller .. => some .getCaller
  | .checkNoPayment | .callValue .. | .getESDTValue .. | .getESDTTokenName .. | .getESDTTokenNonce | .getESDTTokenType
  | .getCallValueTokenName .. => some .getCallValue
  | .writeLog .. | .writeEventLog .. => some .log
  | .getBlockTimestamp | .getPrevBlockTimestamp => some .getBlockTimeStamp
  | .getBlockNonce | .getPrevBlockNonce => some .getBlockNonce
  | .getBlockRound | .getPrevBlockRound => some .getBlockRound
  | .getBlockEpoch | .getPrevBlockEpoch => some .getBlockEpoch
  | .getBlockRandomSeed .. | .getPrevBlockRandomSeed .. => some .getBlockRandomSeed
  | .getStateRootHash .. => some .getStateRootHash
  | .finish .. => some .finish
  | .executeOnSameContext .. => some .executeOnSameContext
  | .executeOnDestContext .. | .executeOnDestContextByCaller .. => some .executeOnDestContext
  | .delegateExecution .. => some .delegateExecution
  | .executeReadOnly .. => some .executeReadOnly
  | .getNumReturnData => some .getNumReturnData
  | .getReturnDataSize .. => some .getReturnDataSize
  | .getReturnData .. => some .getReturnData
  | .bigIntNew .. => some .bigIntNew
  | .bigIntByteLength signed _ => some (if signed then .bigIntSignedByteLength else .bigIntUnsignedByteLength)
  | .bigIntGetBytes signed .. => some (if signed then .bigIntGetSignedBytes else .bigIntGetUnsignedBytes)
  | .bigIntSetBytes signed .. => some (if signed then .bigIntSetSignedBytes else .bigIntSetUnsignedBytes)
  | .bigIntIsInt64 .. => some .bigIntIsInt64
  | .bigIntGetInt64 .. => some .bigIntGetInt64
  | .bigIntSetInt64 .. => some .bigIntSetInt64
  | .bigIntBin op .. => some (binEntry op)
  | .bigIntUn op .. => some (unEntry op)
  | .bigIntShift op .. => some (shiftEntry op)
  | .bigIntSign .. => some .bigIntSign
  | .bigIntCmp .. => some .bigIntCmp
  | .bigIntFinish signed _ => some (if signed then .bigIntFinishSigned else .bigIntFinishUnsigned)
  | .bigIntGetArgument signed .. => some (if signed then .bigIntGetSignedArgument else .bigIntGetUnsignedArgument)
  | .bigIntStorageStoreUnsigned .. => some .bigIntStorageStoreUnsigned
  | .bigIntStorageLoadUnsigned .. => some .bigIntStorageLoadUnsigned
  | .bigIntGetCallValue .. | .bigIntGetESDTCallValue .. => some .bigIntGetCallValue
  | .bigIntGetExternalBalance .. | .bigIntGetESDTExternalBalance .. => some .bigIntGetExternalBalance
  | .smallIntGetArgument .. | .int64getArgument .. => some .int64GetArgument
  | .smallIntFinish .. | .int64finish .. => some .int64Finish
  | .smallIntStorageStore .. | .int64storageStore .. => some .int64StorageStore
  | .smallIntStorageLoad .. | .int64storageLoad .. => some .int64StorageLoad
  | .hash h .. => some (hashEntry h)
  | .verifyBLS .. => some .verifyBLS
  | .verifyEd25519 .. => some .verifyEd25519
  | .verifySecp256k1 .. => some .verifySecp256k1

/-- the length that the contract gives for data that the function copies -/
def copiedBytes : EeiCall → Nat
  | .hash _ _ len _ => len.toNatClampNeg
  | .verifyBLS _ _ len _ => len.toNatClampNeg
  | .verifyEd25519 _ _ len _ => len.toNatClampNeg
  | .verifySecp256k1 _ _ _ len _ => len.toNatClampNeg
  | .asyncCall _ _ _ len => len.toNatClampNeg
  | .upgradeContract _ _ _ _ _ len _ _ _ => len.toNatClampNeg
  | _ => 0
/-- the length that the contract gives for data that becomes part of the result of the transaction -/
def persistedBytes : EeiCall → Nat
  | .finish _ len => len.toNatClampNeg
  | .transferValue _ _ _ len => len.toNatClampNeg
  | .transferESDT _ _ _ _ _ _ len => len.toNatClampNeg
  | _ => 0

/-- what the function costs at least, according to the gas schedule -/
def price (sch : GasSchedule) (a : EeiCall) : Nat :=
  ((ownEntry a).map fun c => (sch.api c).toNat).getD 0 + sch.dataCopyPerByte.toNat * copiedBytes a + sch.persistPerByte.toNat * persistedBytes a

/-- The functions that are charged another entry than their own: the one for subtractions. -/
def Mispriced : EeiCall → Prop
  | .bigIntBin op .. => op ≠ .sub ∧ op ≠ .mul ∧ op ≠ .tdiv
  | .bigIntUn .. => True
  | .bigIntShift .. => True
  | .bigIntSetInt64 .. => True
  | _ => False

/-- What a contract does by itself while it runs: the instructions it executes, at `pb` of their price, and the functions of the API it
calls, at `pr`. It follows the execution of the program. -/
def bill {χ A : Type} (E : Env χ A) (ex : Executor χ A) (pb : UInt64 → Nat) (pr : A → Nat) (i : Nat) : Prog A → St χ A → Nat
  | .ret, _ => 0
  | .trap, _ => 0
  | .burn n k, s => pb n +
    if (s.insts i).points.toNat + n.toNat > (s.insts i).limit.toNat then 0
    else bill E ex pb pr i k (s.modInst i fun x => { x with points := addU64 (s.insts i).points n })
  | .call a k, s => pr a +
    match interp E ex (E.api a) s with
    | (.ok r, t) => if (t.insts i).bp ≠ .none then 0 else bill E ex pb pr i (k r) t
    | _ => 0
  | .load off len k, s =>
    if off + len ≤ (s.insts i).mem.length then bill E ex pb pr i (k (((s.insts i).mem.drop off).take len)) s else 0
  | .store off bs k, s =>
    if off + bs.length ≤ (s.insts i).mem.length then bill E ex pb pr i k (s.modInst i fun x => { x with mem := overwrite x.mem off bs }) else 0

/-- how many functions of the API the program calls -/
def callCount {χ A : Type} (E : Env χ A) (ex : Executor χ A) (i : Nat) (p : Prog A) (s : St χ A) : Nat := bill E ex (fun _ => 0) (fun _ => 1) i p s

end Arwen.Spec
