import Verif.State.Types
/-
Model of the serializable forms of outputs and maps: `ipc/common/serializableVMOutput.go`, `ipc/common/serializableMaps.go`.
Here accounts and storage updates carry the address and the key that the host's model leaves out. Pointers that may be nil are
options; nil and empty byte slices are not distinguished.
-/
namespace Arwen.Ipc

/-- `vmcommon.StorageUpdate`. -/
structure StorageUpdate where
  offset : Bytes
  data : Bytes
  deriving DecidableEq, Repr, Inhabited

/-- `vmcommon.OutputAccount`. -/
structure RawAcc where
  address : Addr
  nonce : UInt64 := 0
  balance : Option Int := none
  balanceDelta : Option Int := none
  storage : AMap Bytes StorageUpdate := AMap.empty
  code : Bytes := []
  codeMetadata : Bytes := []
  gasUsed : UInt64 := 0
  transfers : List OutTransfer := []
  deployer : Bytes := []
  deriving DecidableEq, Repr, Inhabited

/-- `vmcommon.VMOutput`. -/
structure RawOutput where
  returnData : List Bytes := []
  returnCode : ReturnCode := .ok
  returnMessage : Bytes := []
  gasRemaining : UInt64 := 0
  gasRefund : Option Int := none
  accounts : AMap Addr RawAcc := AMap.empty
  deleted : List Bytes := []
  touched : List Bytes := []
  logs : List LogEntry := []
  deriving DecidableEq, Repr, Inhabited

/-- `SerializableOutputTransfer` (`serializableVMOutput.go` 78-85). -/
structure SerTransfer where
  value : Int
  data : Bytes
  gasLimit : UInt64
  gasLocked : UInt64
  callType : CallType
  sender : Bytes
  deriving DecidableEq, Repr, Inhabited

/-- `SerializableOutputAccount` (`serializableVMOutput.go` 65-76). -/
structure SerAcc where
  address : Bytes
  nonce : UInt64
  balance : Option Int
  balanceDelta : Option Int
  storage : List StorageUpdate
  code : Bytes
  codeMetadata : Bytes
  gasUsed : UInt64
  transfers : List SerTransfer
  deployer : Bytes
  deriving DecidableEq, Repr, Inhabited

/-- `SerializableVMOutput` (`serializableVMOutput.go` 9-19). -/
structure SerOutput where
  returnData : List Bytes := []
  returnCode : ReturnCode := .ok
  returnMessage : Bytes := []
  gasRemaining : UInt64 := 0
  gasRefund : Option Int := none
  accounts : List SerAcc := []
  deleted : List Bytes := []
  touched : List Bytes := []
  logs : List LogEntry := []
  deriving DecidableEq, Repr, Inhabited

/-- The orders in which the runtime happens to iterate over maps. -/
structure Orders where
  accounts : AMap Addr RawAcc → List (Addr × RawAcc)
  storage : AMap Bytes StorageUpdate → List (Bytes × StorageUpdate)
  pairs : AMap Bytes Bytes → List (Bytes × Bytes)

/-- `serializableVMOutput.go` 101-111. -/
def SerTransfer.new (t : OutTransfer) : SerTransfer :=
  { value := t.value, data := t.data, gasLimit := t.gasLimit, gasLocked := t.gasLocked, callType := t.callType, sender := t.sender }

/-- `NewSerializableOutputAccount` (`serializableVMOutput.go` 87-118). -/
def SerAcc.new (ord : Orders) (a : RawAcc) : SerAcc :=
  { address := a.address, nonce := a.nonce, balance := a.balance, balanceDelta := a.balanceDelta
    storage := (ord.storage a.storage).map (·.2)
    code := a.code, codeMetadata := a.codeMetadata, gasUsed := a.gasUsed
    transfers := a.transfers.map SerTransfer.new
    deployer := a.deployer }

/-- `NewSerializableVMOutput` (`serializableVMOutput.go` 21-43); `none` is a nil output. -/
def SerOutput.new (ord : Orders) : Option RawOutput → SerOutput
  | none => {}
  | some o =>
    { returnData := o.returnData, returnCode := o.returnCode, returnMessage := o.returnMessage, gasRemaining := o.gasRemaining
      gasRefund := o.gasRefund
      accounts := (ord.accounts o.accounts).map fun p => SerAcc.new ord p.2
      deleted := o.deleted, touched := o.touched, logs := o.logs }

/-- `serializableVMOutput.go` 140-150. -/
def SerTransfer.convert (t : SerTransfer) : OutTransfer :=
  { value := t.value, gasLimit := t.gasLimit, gasLocked := t.gasLocked, data := t.data, callType := t.callType, sender := t.sender }

/-- assign the pairs one after the other into an empty map -/
def mapOf {K V : Type} [DecidableEq K] (l : List (K × V)) : AMap K V := l.foldl (fun m p => m.insert p.1 p.2) AMap.empty

/-- `ConvertToOutputAccount` (`serializableVMOutput.go` 120-153). -/
def SerAcc.convert (a : SerAcc) : RawAcc :=
  { address := a.address, nonce := a.nonce, balance := a.balance, balanceDelta := a.balanceDelta
    storage := mapOf (a.storage.map fun u => (u.offset, u))
    code := a.code, codeMetadata := a.codeMetadata, gasUsed := a.gasUsed
    transfers := a.transfers.map SerTransfer.convert
    deployer := a.deployer }

/-- `ConvertToVMOutput` (`serializableVMOutput.go` 45-63). -/
def SerOutput.convert (o : SerOutput) : RawOutput :=
  { returnData := o.returnData, returnCode := o.returnCode, returnMessage := o.returnMessage, gasRemaining := o.gasRemaining
    gasRefund := o.gasRefund
    accounts := mapOf (o.accounts.map fun a => (a.address, a.convert))
    deleted := o.deleted, touched := o.touched, logs := o.logs }

/-- `SerializableMapStringBytes` (`serializableMaps.go` 3-6). -/
structure SerMap where
  keys : List Bytes
  values : List Bytes
  deriving DecidableEq, Repr, Inhabited

/-- `NewSerializableMapStringBytes` (`serializableMaps.go` 8-20). -/
def SerMap.new (ord : Orders) (m : AMap Bytes Bytes) : SerMap :=
  { keys := (ord.pairs m).map (·.1), values := (ord.pairs m).map (·.2) }

/-- `ConvertToMap` (`serializableMaps.go` 22-32). The code indexes the values by the positions of the keys; `none` is the panic for
a missing value. -/
def SerMap.convert (s : SerMap) : Option (AMap Bytes Bytes) :=
  if s.values.length < s.keys.length then none else some (mapOf (s.keys.zip s.values))

end Arwen.Ipc
