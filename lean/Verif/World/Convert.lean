import Verif.World.Check
/-
Accounts as `setState` steps describe them, and how they become accounts of the mock world (`arwenmandos/util.go`).
-/
namespace Arwen.Mock

/-- `ESDTInstance`, `mandos-go/json/model/esdt.go` 11-19 -/
structure TokenInit where
  nonce : UInt64 := 0
  balance : Int := 0
  creator : Bytes := []
  royalties : UInt64 := 0
  hash : Bytes := []
  uri : Bytes := []
  attributes : Bytes := []
  deriving DecidableEq, Repr, Inhabited

/-- `ESDTData`, `mandos-go/json/model/esdt.go` 22-28 -/
structure TokenSet where
  name : Bytes
  instances : List TokenInit := []
  lastNonce : UInt64 := 0
  roles : List Bytes := []
  frozen : UInt64 := 0
  deriving DecidableEq, Repr, Inhabited

/-- `Account`, `mandos-go/json/model/account.go` 6-19 -/
structure AccountInit where
  address : Addr
  shard : UInt64 := 0
  nonce : UInt64 := 0
  balance : Int := 0
  username : Bytes := []
  storage : List (Bytes × Bytes) := []
  code : Bytes := []
  owner : Bytes := []
  asyncCallData : Bytes := []
  tokens : List TokenSet := []
  deriving DecidableEq, Repr, Inhabited

/-- the record of an instance, `arwenmandos/util.go` 55-68; `makeESDTUserMetadataBytes`, 98-104, gives two bytes, the first of which
is 1 for frozen tokens (`builtInFunctions/esdtMetaData.go` of elrond-vm-common) -/
def tokenRec (t : TokenSet) (i : TokenInit) : TokenRec :=
  { value := i.balance, properties := if t.frozen > 0 then [1, 0] else [0, 0],
    metadata := some { nonce := i.nonce, name := t.name, creator := i.creator, royalties := i.royalties.toUInt32, hash := i.hash,
                       uris := [i.uri], attributes := i.attributes } }

/-- what is written for a token, in order, `arwenmandos/util.go` 48-82: the last nonce only together with instances -/
def tokenWrites (C : TokenCodec) (t : TokenSet) : List (Bytes × Bytes) :=
  t.instances.flatMap (fun i => [(makeTokenKey t.name i.nonce, C.token (tokenRec t i)), (makeLastNonceKey t.name, natToBytes t.lastNonce.toNat)]) ++
    [(makeRolesKey t.name, C.roles t.roles)]

/-- `convertAccount`, `arwenmandos/util.go` 16-85; the code metadata say that the contract is upgradeable, readable and payable. That
the address must have 32 bytes is checked by `setAccount`. -/
def convertAccount (C : TokenCodec) (a : AccountInit) : SetAccount :=
  { address := a.address
    acc := { nonce := a.nonce, balance := a.balance, username := a.username, storage := mapOf a.storage, code := a.code, owner := a.owner,
             asyncCallData := a.asyncCallData, shard := a.shard.toUInt32, isContract := decide (a.code ≠ []), codeMetadata := [5, 2] }
    tokens := a.tokens.flatMap (tokenWrites C) }

end Arwen.Mock
