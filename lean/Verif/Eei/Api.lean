import Verif.Eei.BigInt
import Verif.Eei.Crypto
import Verif.Host.Top
/-
The complete API offered to contracts (`ElrondEIImports`, `BigIntImports`, `SmallIntImports`, `CryptoImports`), as one
data type of calls with their arguments, and the programs they run.
-/
namespace Arwen
open Eei

/-- A call to the API with its arguments (offsets, lengths, handles and values as passed by the contract). -/
inductive EeiCall : Type where
  -- `elrondei.go`
  | getGasLeft
  | getSCAddress (off : Int32)
  | getOwnerAddress (off : Int32)
  | getShardOfAddress (off : Int32)
  | isSmartContract (off : Int32)
  | signalError (off len : Int32)
  | getExternalBalance (addrOff off : Int32)
  | getBlockHash (nonce : Int64) (off : Int32)
  | getESDTBalance (addrOff tokOff tokLen : Int32) (nonce : Int64) (off : Int32)
  | getESDTNFTNameLength (addrOff tokOff tokLen : Int32) (nonce : Int64)
  | getESDTNFTAttributeLength (addrOff tokOff tokLen : Int32) (nonce : Int64)
  | getESDTNFTURILength (addrOff tokOff tokLen : Int32) (nonce : Int64)
  | getESDTTokenData (addrOff tokOff tokLen : Int32) (nonce : Int64) (r : EsdtDest)
  | transferValue (destOff valueOff dataOff len : Int32)
  | transferValueExecute (destOff valueOff : Int32) (gasLimit : Int64) (fOff fLen num lenOff dataOff : Int32)
  | transferESDT (destOff tokOff tokLen valueOff : Int32) (gasLimit : Int64) (dataOff len : Int32)
  | transferESDTExecute (destOff tokOff tokLen valueOff : Int32) (gasLimit : Int64) (fOff fLen num lenOff dataOff : Int32)
  | transferESDTNFTExecute (destOff tokOff tokLen valueOff : Int32) (nonce gasLimit : Int64)
      (fOff fLen num lenOff dataOff : Int32)
  | createAsyncCall (idOff idLen destOff valueOff dataOff len sOff sLen eOff eLen : Int32) (gas : Int64)
  | setAsyncContextCallback (idOff idLen cbOff cbLen : Int32)
  | upgradeContract (destOff : Int32) (gasLimit : Int64) (valueOff codeOff metaOff len num lenOff dataOff : Int32)
  | upgradeFromSourceContract (destOff : Int32) (gasLimit : Int64) (valueOff srcOff metaOff num lenOff dataOff : Int32)
  | asyncCall (destOff valueOff dataOff len : Int32)
  | getArgumentLength (id : Int32)
  | getArgument (id off : Int32)
  | getFunction (off : Int32)
  | getNumArguments
  | storageStore (keyOff keyLen dataOff dataLen : Int32)
  | storageLoadLength (keyOff keyLen : Int32)
  | storageLoadFromAddress (addrOff keyOff keyLen dataOff : Int32)
  | storageLoad (keyOff keyLen dataOff : Int32)
  | setStorageLock (keyOff keyLen : Int32) (timestamp : Int64)
  | getStorageLock (keyOff keyLen : Int32)
  | isStorageLocked (keyOff keyLen : Int32)
  | clearStorageLock (keyOff keyLen : Int32)
  | getCaller (off : Int32)
  | checkNoPayment
  | callValue (off : Int32)
  | getESDTValue (off : Int32)
  | getESDTTokenName (off : Int32)
  | getESDTTokenNonce
  | getCurrentESDTNFTNonce (addrOff tokOff tokLen : Int32)
  | getESDTTokenType
  | getCallValueTokenName (valueOff nameOff : Int32)
  | writeLog (dataOff dataLen topicOff num : Int32)
  | writeEventLog (num lenOff topicOff dataOff dataLen : Int32)
  | getBlockTimestamp | getBlockNonce | getBlockRound | getBlockEpoch
  | getBlockRandomSeed (off : Int32)
  | getStateRootHash (off : Int32)
  | getPrevBlockTimestamp | getPrevBlockNonce | getPrevBlockRound | getPrevBlockEpoch
  | getPrevBlockRandomSeed (off : Int32)
  | finish (off len : Int32)
  | executeOnSameContext (gasLimit : Int64) (addrOff valueOff fOff fLen num lenOff dataOff : Int32)
  | executeOnDestContext (gasLimit : Int64) (addrOff valueOff fOff fLen num lenOff dataOff : Int32)
  | executeOnDestContextByCaller (gasLimit : Int64) (addrOff valueOff fOff fLen num lenOff dataOff : Int32)
  | delegateExecution (gasLimit : Int64) (addrOff fOff fLen num lenOff dataOff : Int32)
  | executeReadOnly (gasLimit : Int64) (addrOff fOff fLen num lenOff dataOff : Int32)
  | createContract (gasLimit : Int64) (valueOff codeOff metaOff len off num lenOff dataOff : Int32)
  | deployFromSourceContract (gasLimit : Int64) (valueOff srcOff metaOff off num lenOff dataOff : Int32)
  | getNumReturnData
  | getReturnDataSize (id : Int32)
  | getReturnData (id off : Int32)
  | getOriginalTxHash (off : Int32)
  -- `bigIntOps.go`
  | bigIntNew (v : Int64)
  | bigIntByteLength (signed : Bool) (x : Int32)
  | bigIntGetBytes (signed : Bool) (x off : Int32)
  | bigIntSetBytes (signed : Bool) (d off len : Int32)
  | bigIntIsInt64 (x : Int32)
  | bigIntGetInt64 (x : Int32)
  | bigIntSetInt64 (d : Int32) (v : Int64)
  | bigIntBin (op : BinOp) (d x y : Int32)
  | bigIntUn (op : UnOp) (d x : Int32)
  | bigIntShift (op : ShiftOp) (d x bits : Int32)
  | bigIntSign (x : Int32)
  | bigIntCmp (x y : Int32)
  | bigIntFinish (signed : Bool) (x : Int32)
  | bigIntGetArgument (signed : Bool) (id d : Int32)
  | bigIntStorageStoreUnsigned (keyOff keyLen x : Int32)
  | bigIntStorageLoadUnsigned (keyOff keyLen d : Int32)
  | bigIntGetCallValue (d : Int32)
  | bigIntGetESDTCallValue (d : Int32)
  | bigIntGetExternalBalance (addrOff d : Int32)
  | bigIntGetESDTExternalBalance (addrOff tokOff tokLen : Int32) (nonce : Int64) (d : Int32)
  -- `smallIntOps.go`
  | smallIntGetArgument (signed : Bool) (id : Int32)
  | smallIntFinish (signed : Bool) (v : Int64)
  | smallIntStorageStore (signed : Bool) (keyOff keyLen : Int32) (v : Int64)
  | smallIntStorageLoad (signed : Bool) (keyOff keyLen : Int32)
  | int64getArgument (id : Int32)
  | int64finish (v : Int64)
  | int64storageStore (keyOff keyLen : Int32) (v : Int64)
  | int64storageLoad (keyOff keyLen : Int32)
  -- `cryptoei.go`
  | hash (h : HashFn) (dataOff len off : Int32)
  | verifyBLS (keyOff msgOff msgLen sigOff : Int32)
  | verifyEd25519 (keyOff msgOff msgLen sigOff : Int32)
  | verifySecp256k1 (keyOff keyLen msgOff msgLen sigOff : Int32)
  deriving DecidableEq, Repr

/-- The program of each API call (the exported functions of `arwen/elrondapi/*.go`, `arwen/cryptoapi/cryptoei.go`). The
thin ones: `transferESDTExecute` is the NFT one with nonce 0 (`elrondei.go` 1097-1112), `clearStorageLock` sets the lock 0
(1805-1807), `int64getArgument`, `int64finish` are the signed, `int64storageStore`, `int64storageLoad` the unsigned ones
(`smallIntOps.go` 270-291). -/
def eei {χ A : Type} (E : Env χ A) : EeiCall → Free χ A Int64
  | .getGasLeft => Eei.getGasLeft
  | .getSCAddress off => Eei.getSCAddress off
  | .getOwnerAddress off => Eei.getOwnerAddress E off
  | .getShardOfAddress off => Eei.getShardOfAddress E off
  | .isSmartContract off => Eei.isSmartContract E off
  | .signalError off len => Eei.signalError off len
  | .getExternalBalance a off => Eei.getExternalBalance a off
  | .getBlockHash n off => Eei.getBlockHash E n off
  | .getESDTBalance a t l n off => Eei.getESDTBalance E a t l n off
  | .getESDTNFTNameLength a t l n => Eei.getESDTNFTNameLength E a t l n
  | .getESDTNFTAttributeLength a t l n => Eei.getESDTNFTAttributeLength E a t l n
  | .getESDTNFTURILength a t l n => Eei.getESDTNFTURILength E a t l n
  | .getESDTTokenData a t l n r => Eei.getESDTTokenData E a t l n r
  | .transferValue d v o l => Eei.transferValue E d v o l
  | .transferValueExecute d v g fo fl n lo o => Eei.transferValueExecute E d v g fo fl n lo o
  | .transferESDT _ _ _ _ _ _ len => Eei.transferESDTOld len
  | .transferESDTExecute d t l v g fo fl n lo o => Eei.transferESDTNFTExecute E d t l v 0 g fo fl n lo o
  | .transferESDTNFTExecute d t l v nn g fo fl n lo o => Eei.transferESDTNFTExecute E d t l v nn g fo fl n lo o
  | .createAsyncCall i il d v o l so sl eo el g => Eei.createAsyncCall i il d v o l so sl eo el g
  | .setAsyncContextCallback i il c cl => Eei.setAsyncContextCallback i il c cl
  | .upgradeContract d g v c m l n lo o => Eei.upgradeContract d g v c m l n lo o
  | .upgradeFromSourceContract d g v s m n lo o => Eei.upgradeFromSourceContract d g v s m n lo o
  | .asyncCall d v o l => Eei.asyncCall d v o l
  | .getArgumentLength id => Eei.getArgumentLength id
  | .getArgument id off => Eei.getArgument id off
  | .getFunction off => Eei.getFunction off
  | .getNumArguments => Eei.getNumArguments
  | .storageStore k kl d dl => Eei.storageStore k kl d dl
  | .storageLoadLength k kl => Eei.storageLoadLength k kl
  | .storageLoadFromAddress a k kl d => Eei.storageLoadFromAddress a k kl d
  | .storageLoad k kl d => Eei.storageLoad k kl d
  | .setStorageLock k kl t => Eei.setStorageLock k kl t
  | .getStorageLock k kl => Eei.getStorageLock k kl
  | .isStorageLocked k kl => Eei.isStorageLocked E k kl
  | .clearStorageLock k kl => Eei.setStorageLock k kl 0
  | .getCaller off => Eei.getCaller off
  | .checkNoPayment => Eei.checkNoPayment
  | .callValue off => Eei.getCallValue off
  | .getESDTValue off => Eei.getESDTValue off
  | .getESDTTokenName off => Eei.getESDTTokenName off
  | .getESDTTokenNonce => Eei.getESDTTokenNonce
  | .getCurrentESDTNFTNonce a t l => Eei.getCurrentESDTNFTNonce E a t l
  | .getESDTTokenType => Eei.getESDTTokenType
  | .getCallValueTokenName v n => Eei.getCallValueTokenName v n
  | .writeLog d dl t n => Eei.writeLog d dl t n
  | .writeEventLog n lo t d dl => Eei.writeEventLog n lo t d dl
  | .getBlockTimestamp => Eei.blockTimestamp E
  | .getBlockNonce => Eei.blockNonce E
  | .getBlockRound => Eei.blockRound E
  | .getBlockEpoch => Eei.blockEpoch E
  | .getBlockRandomSeed off => Eei.blockRandomSeed E off
  | .getStateRootHash off => Eei.stateRootHash E off
  | .getPrevBlockTimestamp => Eei.prevBlockTimestamp E
  | .getPrevBlockNonce => Eei.prevBlockNonce E
  | .getPrevBlockRound => Eei.prevBlockRound E
  | .getPrevBlockEpoch => Eei.prevBlockEpoch E
  | .getPrevBlockRandomSeed off => Eei.prevBlockRandomSeed E off
  | .finish off len => Eei.finish off len
  | .executeOnSameContext g a v fo fl n lo o => Eei.exec E .same g a (some v) fo fl n lo o
  | .executeOnDestContext g a v fo fl n lo o => Eei.exec E .dest g a (some v) fo fl n lo o
  | .executeOnDestContextByCaller g a v fo fl n lo o => Eei.exec E .destByCaller g a (some v) fo fl n lo o
  | .delegateExecution g a fo fl n lo o => Eei.exec E .delegate g a none fo fl n lo o
  | .executeReadOnly g a fo fl n lo o => Eei.exec E .readOnly g a none fo fl n lo o
  | .createContract g v c m l r n lo o => Eei.createContract g v c m l r n lo o
  | .deployFromSourceContract g v s m r n lo o => Eei.deployFromSourceContract g v s m r n lo o
  | .getNumReturnData => Eei.getNumReturnData
  | .getReturnDataSize id => Eei.getReturnDataSize id
  | .getReturnData id off => Eei.getReturnData id off
  | .getOriginalTxHash off => Eei.originalTxHash off
  | .bigIntNew v => Eei.bigNew v
  | .bigIntByteLength sg x => Eei.bigByteLength sg x
  | .bigIntGetBytes sg x off => Eei.bigGetBytes sg x off
  | .bigIntSetBytes sg d off len => Eei.bigSetBytes sg d off len
  | .bigIntIsInt64 x => Eei.bigIsInt64 x
  | .bigIntGetInt64 x => Eei.bigGetInt64 x
  | .bigIntSetInt64 d v => Eei.bigSetInt64 d v
  | .bigIntBin op d x y => Eei.binK op d x y
  | .bigIntUn op d x => Eei.unK op d x
  | .bigIntShift op d x b => Eei.shiftK op d x b
  | .bigIntSign x => Eei.bigSign x
  | .bigIntCmp x y => Eei.bigCmp x y
  | .bigIntFinish sg x => Eei.bigFinish sg x
  | .bigIntGetArgument sg id d => Eei.bigGetArgument sg id d
  | .bigIntStorageStoreUnsigned k kl x => Eei.bigStorageStore k kl x
  | .bigIntStorageLoadUnsigned k kl d => Eei.bigStorageLoad k kl d
  | .bigIntGetCallValue d => Eei.bigGetCallValue d
  | .bigIntGetESDTCallValue d => Eei.bigGetESDTCallValue d
  | .bigIntGetExternalBalance a d => Eei.bigGetExternalBalance a d
  | .bigIntGetESDTExternalBalance a t l n d => Eei.bigGetESDTExternalBalance E a t l n d
  | .smallIntGetArgument sg id => Eei.smallGetArgument sg id
  | .smallIntFinish sg v => Eei.smallFinish sg v
  | .smallIntStorageStore sg k kl v => Eei.smallStorageStore sg k kl v
  | .smallIntStorageLoad sg k kl => Eei.smallStorageLoad sg k kl
  | .int64getArgument id => Eei.smallGetArgument true id
  | .int64finish v => Eei.smallFinish true v
  | .int64storageStore k kl v => Eei.smallStorageStore false k kl v
  | .int64storageLoad k kl => Eei.smallStorageLoad false k kl
  | .hash h d l off => Eei.hash E h d l off
  | .verifyBLS k m ml sg => Eei.verifyBLS E k m ml sg
  | .verifyEd25519 k m ml sg => Eei.verifyEd25519 E k m ml sg
  | .verifySecp256k1 k kl m ml sg => Eei.verifySecp256k1 E k kl m ml sg

/-- The environment with the real API (`arwen/host/arwen.go` 125-180: the imports given to Wasmer). -/
def Env.real {χ : Type} (E : Env χ EeiCall) : Env χ EeiCall := { E with api := eei E }

end Arwen
