import Verif.State.Machine
/-
The mock world: the chain on which scenario tests run (`mock/world`).
Accounts are objects behind pointers in Go, held in a map under their own address; here the map holds them by value, which is the
same because no two entries share an account and a clone shares nothing with its original. Iteration over a Go map follows the
order of the entries.
-/
namespace Arwen.Mock

/-- `mock/world/worldAccount.go` 21-39. `Address` is the key in the map, `MockWorld` is the world that the account is in. The
pointers `Balance`, `BalanceDelta` and `DeveloperReward` are never nil in accounts made by `CreateAccount` or by a scenario. -/
structure WAcc where
  exists_ : Bool := true
  nonce : UInt64 := 0
  balance : Int := 0
  balanceDelta : Int := 0
  storage : AMap Bytes Bytes := AMap.empty
  rootHash : Bytes := []
  code : Bytes := []
  codeHash : Bytes := []
  codeMetadata : Bytes := []
  owner : Bytes := []
  asyncCallData : Bytes := []
  username : Bytes := []
  developerReward : Int := 0
  shard : UInt32 := 0
  isContract : Bool := false
  deriving DecidableEq, Repr, Inhabited

/-- `mock/world/worldDef.go` 10-16 -/
structure AddressMock where
  creator : Addr
  nonce : UInt64
  address : Addr
  deriving DecidableEq, Repr, Inhabited

/-- `mock/world/worldDef.go` 17-24; the seed is a pointer, which may be nil -/
structure BlockInfo where
  timestamp : UInt64 := 0
  nonce : UInt64 := 0
  round : UInt64 := 0
  epoch : UInt32 := 0
  seed : Option Bytes := none
  deriving DecidableEq, Repr, Inhabited

/-- `mock/world/worldAccountMap.go` 13 -/
abbrev AccountMap := AMap Addr WAcc

/-- `mock/world/worldDef.go` 27-40, with the snapshots of `MockAccountsAdapter` (`worldAccountsAdapter.go` 19-22).
`LastCreatedContractAddress`, which only tests read, is left out. -/
structure MockWorld where
  selfShard : UInt32 := 0
  accts : AccountMap := AMap.empty
  snapshots : List AccountMap := []
  previous : Option BlockInfo := none
  current : Option BlockInfo := some {}
  blockhashes : List Bytes := []
  addressMocks : List AddressMock := []
  stateRootHash : Bytes := []
  err : Option Err := none
  compiled : AMap Bytes Bytes := AMap.empty
  deriving DecidableEq, Repr, Inhabited

/-- What the mock world takes from libraries: the hash of code, the test for contract addresses, the bits of code metadata, the
built-in functions of the node with the tokens they keep. -/
structure Lib where
  sha256 : Bytes → Bytes
  isContractAddress : Addr → Bool
  payable : Bytes → Bool
  /-- metadata with the flags payable, upgradeable and readable -/
  openMetadata : Bytes
  /-- metadata with the flag payable -/
  payableMetadata : Bytes
  builtin : MockWorld → CallInput → Except Err BuiltinOutput × MockWorld
  token : MockWorld → Addr → Bytes → UInt64 → Except Err EsdtToken

/-! ### Accounts -/

namespace WAcc

/-- `StorageValue`, `mock/world/worldAccount.go` 44-50 -/
def storageValue (a : WAcc) (key : Bytes) : Bytes := (a.storage.get? key).getD []

/-- `SetCodeAndMetadata`, `mock/world/worldAccount.go` 55-66 -/
def setCodeAndMetadata (L : Lib) (code md : Bytes) (a : WAcc) : WAcc :=
  { a with code := code, codeHash := L.sha256 code, isContract := true, codeMetadata := md }

/-- `SetCode`, `mock/world/worldAccount.go` 129-134 -/
def setCode (L : Lib) (code : Bytes) (a : WAcc) : WAcc :=
  { a with code := code, codeHash := L.sha256 code, isContract := true }

/-- `AddToBalance`, `mock/world/worldAccount.go` 157-165; `none` for an error -/
def addToBalance (v : Int) (a : WAcc) : Option WAcc :=
  if a.balance + v < 0 then none else some { a with balance := a.balance + v }

/-- `SubFromBalance`, `mock/world/worldAccount.go` 168-176 -/
def subFromBalance (v : Int) (a : WAcc) : Option WAcc :=
  if a.balance - v < 0 then none else some { a with balance := a.balance - v }

/-- `ClaimDeveloperRewards`, `mock/world/worldAccount.go` 179-188 -/
def claimRewards (sender : Bytes) (a : WAcc) : Option (Int × WAcc) :=
  if sender = a.owner then some (a.developerReward, { a with developerReward := 0 }) else none

/-- `ChangeOwnerAddress`, `mock/world/worldAccount.go` 196-207; `self` is the account's address -/
def changeOwner (self : Addr) (sender new : Bytes) (a : WAcc) : Option WAcc :=
  if sender ≠ a.owner then none
  else if new.length ≠ self.length then none
  else some { a with owner := new }

end WAcc

/-! ### The world -/

namespace MockWorld

/-- `GetAccount`, `mock/world/worldAccountMap.go` 67-69 -/
def account (w : MockWorld) (a : Addr) : Option WAcc := w.accts.get? a

/-- `PutAccount`, `mock/world/worldAccountMap.go` 55-57 -/
def put (w : MockWorld) (a : Addr) (acc : WAcc) : MockWorld := { w with accts := w.accts.insert a acc }

/-- `DeleteAccount`, `mock/world/worldAccountMap.go` 72-74 -/
def delete (w : MockWorld) (a : Addr) : MockWorld := { w with accts := w.accts.erase a }

/-- `CreateAccount`, `mock/world/worldAccountMap.go` 21-40 -/
def create (w : MockWorld) (a : Addr) : MockWorld := w.put a {}

/-- `CreateSmartContractAccount`, `mock/world/worldAccountMap.go` 44-52 -/
def createContract (L : Lib) (w : MockWorld) (owner a : Addr) (code : Bytes) : MockWorld :=
  w.put a { code := code, isContract := true, owner := owner, codeMetadata := L.payableMetadata }

/-- `UpdateBalance`, `mock/world/worldUpdate.go` 11-18; the flag is false for an error -/
def updateBalance (w : MockWorld) (a : Addr) (b : Int) : Bool × MockWorld :=
  match w.account a with
  | none => (false, w)
  | some acc => (true, w.put a { acc with balance := b })

/-- `UpdateBalanceWithDelta`, `mock/world/worldUpdate.go` 21-28 -/
def updateBalanceWithDelta (w : MockWorld) (a : Addr) (d : Int) : Bool × MockWorld :=
  match w.account a with
  | none => (false, w)
  | some acc => (true, w.put a { acc with balance := acc.balance + d })

/-- `UpdateWorldStateBefore`, `mock/world/worldUpdate.go` 31-49. The nonce grows also when the gas cannot be paid. -/
def updateBefore (w : MockWorld) (sender : Addr) (gasLimit gasPrice : UInt64) : Bool × MockWorld :=
  match w.account sender with
  | none => (false, w)
  | some acc =>
    let acc := { acc with nonce := acc.nonce + 1 }
    let payment : Int := gasLimit.toNat * gasPrice.toNat
    if acc.balance < payment then (false, w.put sender acc)
    else (true, w.put sender { acc with balance := acc.balance - payment })

/-- the account that results from an output account, `mock/world/worldUpdate.go` 74-98. `BalanceDelta` is never nil in the VM's
output. The first transfer's data becomes the data of the async call. -/
def applyOutput (L : Lib) (o : OutAcc) (acc : WAcc) : WAcc :=
  let acc := { acc with exists_ := true, balance := acc.balance + o.balanceDelta }
  let acc := if o.nonce > acc.nonce then { acc with nonce := o.nonce } else acc
  let acc := if o.code ≠ [] then acc.setCodeAndMetadata L o.code L.openMetadata else acc
  let acc := match o.transfers with
    | t :: _ => if t.data ≠ [] then { acc with asyncCallData := t.data } else acc
    | [] => acc
  { acc with storage := o.storage.entries.foldl (fun m p => m.insert p.1 p.2) acc.storage }

/-- `UpdateAccountFromOutputAccount`, `mock/world/worldUpdate.go` 67-99 -/
def updateAccount (L : Lib) (w : MockWorld) (a : Addr) (o : OutAcc) : MockWorld :=
  w.put a (applyOutput L o ((w.account a).getD { owner := o.deployer.getD [] }))

/-- `UpdateAccounts`, `mock/world/worldUpdate.go` 52-64. The VM never reports deleted accounts. -/
def updateAccounts (L : Lib) (w : MockWorld) (accounts : AMap Addr OutAcc) : MockWorld :=
  accounts.entries.foldl (fun w p => w.updateAccount L p.1 p.2) w

/-! ### Snapshots -/

/-- `SnapshotState`, `mock/world/worldAccountsAdapter.go` 127-130, and `CreateStateBackup`, `mock/world/worldUpdate.go` 102-104 -/
def backup (w : MockWorld) : MockWorld := { w with snapshots := w.snapshots ++ [w.accts] }

/-- `Commit`, `mock/world/worldAccountsAdapter.go` 70-73, and `CommitChanges`, `mock/world/worldUpdate.go` 107-110 -/
def commit (w : MockWorld) : MockWorld := { w with snapshots := [] }

/-- `JournalLen`, `mock/world/worldAccountsAdapter.go` 76-78, and `GetSnapshot`, `mock/world/worldDef.go` 127-129 -/
def snapshot (w : MockWorld) : Int := (w.snapshots.length : Int) - 1

/-- `LoadAccountStorageFrom`, `mock/world/worldAccountMap.go` 88-100: over the accounts in the order of the iteration; an account
that the other map does not have ends the loop with an error, what was loaded before stays. -/
def loadStorage (other : AccountMap) : List (Addr × WAcc) → AccountMap → Bool × AccountMap
  | [], m => (true, m)
  | (a, acc) :: rest, m =>
    match other.get? a with
    | none => (false, m)
    | some o => loadStorage other rest (m.insert a { acc with storage := o.storage })

/-- `RevertToSnapshot`, `mock/world/worldAccountsAdapter.go` 81-98 and `mock/world/worldDef.go` 132-134 -/
def revert (w : MockWorld) (i : Int) : Bool × MockWorld :=
  if w.snapshots = [] then (false, w)
  else if i ≥ (w.snapshots.length : Int) ∨ i < 0 then (false, w)
  else
    let r := loadStorage ((w.snapshots[i.toNat]?).getD AMap.empty) w.accts.entries w.accts
    (r.1, { w with snapshots := w.snapshots.take i.toNat, accts := r.2 })

/-- `RollbackChanges`, `mock/world/worldUpdate.go` 113-115 -/
def rollback (w : MockWorld) : Bool × MockWorld := w.revert 0

/-- `SaveKeyValue`, `mock/world/worldAccount.go` 231-238, on an account of this world: takes a snapshot after each write -/
def saveKeyValue (w : MockWorld) (a : Addr) (key value : Bytes) : MockWorld :=
  match w.account a with
  | none => w
  | some acc => (w.put a { acc with storage := acc.storage.insert key value }).backup

/-- `RemoveAccount`, `mock/world/worldAccountsAdapter.go` 59-67 -/
def remove (w : MockWorld) (a : Addr) : Bool × MockWorld :=
  match w.account a with
  | none => (false, w)
  | some _ => (true, w.delete a)

/-- `Clear`, `mock/world/worldDef.go` 74-82 -/
def clear (w : MockWorld) : MockWorld :=
  { w with accts := AMap.empty, snapshots := [], previous := none, current := none, blockhashes := [], addressMocks := [],
           compiled := AMap.empty }

/-! ### The world as the VM's blockchain hook -/

/-- `GenerateMockAddress`, `mock/world/worldUtil.go` 4-16, for an address of 32 bytes -/
def generateAddress (creator : Addr) (nonce : UInt64) : Addr :=
  List.replicate 10 0 ++ List.replicate 4 0x11 ++ creator.take 15 ++ [nonce.toUInt8] ++ (creator.drop 30).take 2

/-- `NewAddress`, `mock/world/worldCallbacks.go` 23-43 -/
def newAddress (w : MockWorld) (creator : Addr) (nonce : UInt64) : Except Err Addr :=
  match w.err with
  | some e => .error e
  | none =>
    match w.addressMocks.find? (fun m => m.creator = creator ∧ m.nonce = nonce) with
    | some m => .ok m.address
    | none => .ok (generateAddress creator nonce)

/-- `GetStorageData`, `mock/world/worldCallbacks.go` 47-58. The VM ignores the error. -/
def storageData (w : MockWorld) (a : Addr) (key : Bytes) : Bytes :=
  match w.err with
  | some _ => []
  | none => ((w.account a).map (fun acc => acc.storageValue key)).getD []

/-- `GetBlockhash`, `mock/world/worldCallbacks.go` 62-75. The distance to the current block becomes an `int`; a negative one passes the
check of its size and panics as an index. -/
def blockhash (w : MockWorld) (nonce : UInt64) : Option (Except Err Bytes) :=
  match w.err with
  | some e => some (.error e)
  | none =>
    let now := (w.current.getD {}).nonce
    if nonce > now then some (.error (.hook 2))
    else if (now - nonce).toInt64 < 0 then none
    else match w.blockhashes[(now - nonce).toNat]? with
      | some h => some (.ok h)
      | none => some (.error (.hook 3))

/-- `GetUserAccount`, `mock/world/worldCallbacks.go` 206-218; a missing account is an error -/
def userAccount (w : MockWorld) (a : Addr) : Except Err (Option UserAcct) :=
  match w.err with
  | some e => .error e
  | none =>
    match w.account a with
    | none => .error (.hook 1)
    | some acc => .ok (some { balance := acc.balance, nonce := acc.nonce, codeHash := acc.codeHash,
                              codeMetadata := acc.codeMetadata, owner := acc.owner, code := acc.code })

/-- `IsSmartContract`, `mock/world/worldCallbacks.go` 241-248 -/
def isSmartContract (L : Lib) (w : MockWorld) (a : Addr) : Bool :=
  match w.account a with
  | none => L.isContractAddress a
  | some acc => acc.isContract

/-- `IsPayable`, `mock/world/worldCallbacks.go` 251-263 -/
def isPayable (L : Lib) (w : MockWorld) (a : Addr) : Bool :=
  match w.account a with
  | none => true
  | some acc => !acc.isContract || L.payable acc.codeMetadata

/-- `GetShardOfAddress`, `mock/world/worldCallbacks.go` 231-238 -/
def shardOf (w : MockWorld) (a : Addr) : UInt32 := ((w.account a).map WAcc.shard).getD 0

/-- The mock world as the blockchain hook of the VM, `mock/world/worldCallbacks.go`. The texts of the errors that
the world makes itself are numbered. -/
def hook (L : Lib) : Hook MockWorld where
  newAddress w creator nonce _ := w.newAddress creator nonce
  userAccount w a := w.userAccount a
  storageData w a k := w.storageData a k
  blockhash w n := w.blockhash n
  processBuiltIn w i := match w.err with
    | some e => (.error e, w)
    | none => L.builtin w i
  isPayable w a := .ok (w.isPayable L a)
  isSmartContract w a := w.isSmartContract L a
  shardOf w a := w.shardOf a
  snapshot w := w.snapshot
  revert w i := (w.revert i).2
  compiledCode w h := w.compiled.get? h
  saveCompiled w h c := { w with compiled := w.compiled.insert h c }
  esdtToken w a t n := match w.err with
    | some e => .error e
    | none => L.token w a t n
  stateRootHash w := w.stateRootHash
  currentEpoch w := (w.current.getD {}).epoch
  currentNonce w := (w.current.getD {}).nonce
  currentRound w := (w.current.getD {}).round
  currentTimeStamp w := (w.current.getD {}).timestamp
  -- of a block without a seed a nil pointer is sliced, which panics
  currentRandomSeed w := match w.current with
    | none => some []
    | some b => b.seed
  lastEpoch w := (w.previous.getD {}).epoch
  lastNonce w := (w.previous.getD {}).nonce
  lastRound w := (w.previous.getD {}).round
  lastTimeStamp w := (w.previous.getD {}).timestamp
  lastRandomSeed w := match w.previous with
    | none => some []
    | some b => b.seed

end MockWorld

/-! ### Histories -/

/-- Everything that tests, the scenario executor and the node's built-in functions do to the accounts of the mock world. -/
inductive Op (L : Lib)
  | put (a : Addr) (acc : WAcc)
  | create (a : Addr)
  | createContract (owner a : Addr) (code : Bytes)
  | delete (a : Addr)
  | remove (a : Addr)
  /-- any of the setters and methods of an account that leave its storage alone: balance, nonce, code, owner, rewards, … -/
  | change (a : Addr) (f : WAcc → WAcc)
  | saveKeyValue (a : Addr) (key value : Bytes)
  | updateBalance (a : Addr) (b : Int)
  | updateBalanceWithDelta (a : Addr) (d : Int)
  | updateBefore (sender : Addr) (gasLimit gasPrice : UInt64)
  | updateAccounts (accounts : AMap Addr OutAcc)
  | backup
  | commit
  | revert (i : Int)
  | saveCompiled (hash code : Bytes)

/-- running one operation; the errors are reported to the caller and change nothing else -/
def Op.run {L : Lib} (w : MockWorld) : Op L → MockWorld
  | .put a acc => w.put a acc
  | .create a => w.create a
  | .createContract o a c => w.createContract L o a c
  | .delete a => w.delete a
  | .remove a => (w.remove a).2
  | .change a f => match w.account a with
    | none => w
    | some acc => w.put a (f acc)
  | .saveKeyValue a k v => w.saveKeyValue a k v
  | .updateBalance a b => (w.updateBalance a b).2
  | .updateBalanceWithDelta a d => (w.updateBalanceWithDelta a d).2
  | .updateBefore a l p => (w.updateBefore a l p).2
  | .updateAccounts m => w.updateAccounts L m
  | .backup => w.backup
  | .commit => w.commit
  | .revert i => (w.revert i).2
  | .saveCompiled h c => { w with compiled := w.compiled.insert h c }

/-- running a history -/
def runOps {L : Lib} (w : MockWorld) (ops : List (Op L)) : MockWorld := ops.foldl Op.run w

end Arwen.Mock
