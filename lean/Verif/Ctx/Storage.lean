import Verif.Ctx.Blockchain
/-
Model of `arwen/contexts/storage.go`.
-/
namespace Arwen
variable {χ A : Type} (E : Env χ A)

namespace StoCtx
/-- `storage.go` 50-52. -/
def push (c : StoCtx) : StoCtx := { c with stack := c.addr :: c.stack }
/-- `storage.go` 55-65. -/
def popSet (c : StoCtx) : StoCtx :=
  match c.stack with
  | [] => c
  | a :: rest => { c with addr := a, stack := rest }
/-- `storage.go` 68-75. -/
def popDiscard (c : StoCtx) : StoCtx := { c with stack := c.stack.tail }
/-- `storage.go` 78-80. -/
def clearStack (c : StoCtx) : StoCtx := { c with stack := [] }
/-- `storage.go` 83-86. -/
def setAddress (c : StoCtx) (a : Addr) : StoCtx := { c with addr := a }
end StoCtx

/-- length of addresses (`arwen/common.go` 54, `AddressLen`) -/
def addressLen : Nat := 32

/-- `vmcommon.CodeMetadataFromBytes` (trusted; 2 bytes, flags by bit). -/
def metaUpgradeable (m : Bytes) : Bool := match m with | [a, _] => a &&& 1 ≠ 0 | _ => false
def metaReadable (m : Bytes) : Bool := match m with | [a, _] => a &&& 4 ≠ 0 | _ => false

/-- `isArwenProtectedKey` (`storage.go` 188-190). -/
def isProtectedKey (k : Bytes) : Bool := protectedPrefix.isPrefixOf k
/-- `isElrondReservedKey` (`storage.go` 192-194). -/
def isReservedKey (k : Bytes) : Bool := E.elrondPrefix.isPrefixOf k

/-- gas for a key longer than an address (`storage.go` 98-102 and the same lines elsewhere) -/
def useKeyGas (key : Bytes) : M χ A Unit := do
  let s ← M.get
  if key.length > addressLen then useGas (mulU64 s.met.sched.dataCopyPerByte (UInt64.ofNat (key.length - addressLen)))
  else pure ()

/-- `getStorageFromAddressUnmetered` (`storage.go` 158-173). -/
def readStorage (addr : Addr) (key : Bytes) (s : St χ A) : Bytes × St χ A :=
  let (acc, _, out') := s.out.getAcc addr
  let s' := { s with out := out' }
  match acc.storage.get? key with
  | some v => (v, s')
  | none =>
    let v := E.hook.storageData s.world addr key
    (v, { s' with out := s'.out.setAcc addr { acc with storage := acc.storage.insert key v } })

/-- `GetStorageUnmetered` (`storage.go` 176-178). -/
def getStorageUnmetered (key : Bytes) : M χ A Bytes := fun s =>
  M.lift (readStorage E s.sto.addr key) s

/-- `GetStorage` (`storage.go` 95-112). -/
def getStorage (key : Bytes) : M χ A Bytes := do
  useKeyGas key
  let v ← getStorageUnmetered E key
  let s ← M.get
  useGas (mulU64 s.met.sched.dataCopyPerByte (UInt64.ofNat v.length))
  pure v

/-- the access check of `GetStorageFromAddress` (`storage.go` 124-134) -/
def storageReadable (s : St χ A) (addr : Addr) : Bool :=
  addr = s.sto.addr ||
  match acctOf E s addr with
  | none => false
  | some ua => metaReadable ua.codeMetadata

/-- `GetStorageFromAddress` (`storage.go` 115-156); nil is `[]`. -/
def getStorageFromAddress (addr : Addr) (key : Bytes) : M χ A Bytes := do
  useKeyGas key
  let s ← M.get
  if !storageReadable E s addr then pure []
  else do
    let v ← if isReservedKey E key then M.gets (fun s => E.hook.storageData s.world addr key)
      else M.lift (readStorage E addr key)
    useGas (mulU64 s.met.sched.dataCopyPerByte (UInt64.ofNat v.length))
    pure v

/-- the new entry in the storage updates (`storage.go` 252-257) -/
def writeStorage (addr : Addr) (key value : Bytes) (s : St χ A) : St χ A :=
  { s with out := s.out.modAcc addr (fun acc => { acc with storage := acc.storage.insert key value }) }

/-- gas for replacing `old` by `value` and the resulting status (`storage.go` 245-292), after the write -/
def storageGas (old value : Bytes) : M χ A StorageStatus := do
  let s ← M.get
  let g := s.met.sched
  let n := value.length
  let m := old.length
  if old = [] then do
    useGas (mulU64 g.storePerByte (UInt64.ofNat n))
    pure .added
  else if value = [] then do
    freeGas (mulU64 g.releasePerByte (UInt64.ofNat m))
    pure .deleted
  else if n > m then do
    useGas (addU64 (mulU64 g.persistPerByte (UInt64.ofNat m)) (mulU64 g.storePerByte (UInt64.ofNat (n - m))))
    pure .modified
  else if n < m then do
    useGas (mulU64 g.persistPerByte (UInt64.ofNat n))
    freeGas (mulU64 g.releasePerByte (UInt64.ofNat (m - n)))
    pure .modified
  else pure .modified

/-- `SetStorage` (`storage.go` 204-292). -/
def setStorage (key value : Bytes) : M χ A (StorageStatus × Option Err) := do
  let s ← M.get
  if s.rt.cur.readOnly then pure (.unchanged, none)
  else if isReservedKey E key then pure (.unchanged, some .storeElrondReservedKey)
  else if isProtectedKey key && s.sto.protect then pure (.unchanged, some .cannotWriteProtectedKey)
  else do
    useKeyGas key
    let old ← getStorageUnmetered E key
    if old = value then do
      let s ← M.get
      useGas (mulU64 s.met.sched.dataCopyPerByte (UInt64.ofNat value.length))
      pure (.unchanged, none)
    else do
      M.modify (fun s => writeStorage s.sto.addr key value s)
      let st ← storageGas old value
      pure (st, none)

/-- `SetProtectedStorage` (`storage.go` 196-201). -/
def setProtectedStorage (key value : Bytes) : M χ A (StorageStatus × Option Err) := do
  M.modify (fun s => { s with sto := { s.sto with protect := false } })
  M.deferred (setStorage E key value) (fun r => do
    M.modify (fun s => { s with sto := { s.sto with protect := true } })
    match r with
    | some r => pure r
    | none => M.panic)

end Arwen
