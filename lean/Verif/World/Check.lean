import Verif.World.Esdt
import Verif.World.Executor
/-
The checks of scenarios: `checkState` steps (`arwenmandos/stepCheckAccounts.go`) and the expected results of transactions
(`arwenmandos/stepCheckTxResult.go`). The texts of error messages are left out: a check passes or not.
-/
namespace Arwen.Mock

/-- `JSONCheckBytes`, `mandos-go/json/model/valueCheck.go` 13-18, without the text it was written as -/
structure CheckBytes where
  value : Bytes := []
  star : Bool := false
  unspecified : Bool := false
  deriving DecidableEq, Repr, Inhabited

/-- `JSONCheckBigInt`, `mandos-go/json/model/valueCheck.go` 75-80; a nil value comes with `star` only -/
structure CheckInt where
  value : Int := 0
  star : Bool := false
  unspecified : Bool := false
  deriving DecidableEq, Repr, Inhabited

/-- `JSONCheckUint64`, `mandos-go/json/model/valueCheck.go` 109-114 -/
structure CheckU64 where
  value : UInt64 := 0
  star : Bool := false
  unspecified : Bool := false
  deriving DecidableEq, Repr, Inhabited

/-- `Check`, `mandos-go/json/model/valueCheck.go` 65-70 -/
def CheckBytes.check (c : CheckBytes) (x : Bytes) : Bool := c.star || decide (c.value = x)
/-- `Check`, `mandos-go/json/model/valueCheck.go` 99-104 -/
def CheckInt.check (c : CheckInt) (x : Int) : Bool := c.star || decide (c.value = x)
/-- `Check`, `mandos-go/json/model/valueCheck.go` 133-138 -/
def CheckU64.check (c : CheckU64) (x : UInt64) : Bool := c.star || decide (c.value = x)

/-- `JSONCheckBytesStar`, `mandos-go/json/model/valueCheck.go` 31-38 -/
def CheckBytes.anything : CheckBytes := { star := true }
/-- `JSONCheckBytesUnspecified`, `mandos-go/json/model/valueCheck.go` 21-28 -/
def CheckBytes.omitted : CheckBytes := { unspecified := true }
/-- `JSONCheckBigIntUnspecified`, `mandos-go/json/model/valueCheck.go` 83-90 -/
def CheckInt.omitted : CheckInt := { unspecified := true }
/-- `JSONCheckUint64Unspecified`, `mandos-go/json/model/valueCheck.go` 117-124 -/
def CheckU64.omitted : CheckU64 := { unspecified := true }

/-- `CheckESDTInstance`, `mandos-go/json/model/esdt.go` 31-39 -/
structure CheckInstance where
  nonce : CheckU64 := {}
  balance : CheckInt := {}
  creator : CheckBytes := {}
  royalties : CheckU64 := {}
  hash : CheckBytes := {}
  uri : CheckBytes := {}
  attributes : CheckBytes := {}
  deriving DecidableEq, Repr, Inhabited

/-- `CheckESDTData`, `mandos-go/json/model/esdt.go` 55-61 -/
structure CheckToken where
  name : Bytes := []
  instances : List CheckInstance := []
  lastNonce : CheckU64 := {}
  roles : List Bytes := []
  frozen : CheckU64 := {}
  deriving DecidableEq, Repr, Inhabited

/-- `CheckAccount`, `mandos-go/json/model/account.go` 28-43 -/
structure CheckAccount where
  address : Addr
  nonce : CheckU64 := .omitted
  balance : CheckInt := .omitted
  username : CheckBytes := .omitted
  storage : List (Bytes × CheckBytes) := []
  ignoreStorage : Bool := false
  moreStorage : Bool := false
  code : CheckBytes := .omitted
  owner : CheckBytes := .omitted
  asyncCallData : CheckBytes := .omitted
  tokens : List CheckToken := []
  ignoreTokens : Bool := false
  moreTokens : Bool := false
  deriving DecidableEq, Repr, Inhabited

/-- `CheckAccounts`, `mandos-go/json/model/account.go` 52-55 -/
structure CheckAccounts where
  accounts : List CheckAccount := []
  moreAccounts : Bool := false
  deriving DecidableEq, Repr, Inhabited

/-- a Go map filled by a loop over a list -/
def mapOf {K V : Type} [DecidableEq K] (l : List (K × V)) : AMap K V := l.foldl (fun m p => m.insert p.1 p.2) AMap.empty

/-- `FindCheckAccount`, `mandos-go/json/model/account.go` 68-75: whether there is one -/
def hasCheck (l : List CheckAccount) (a : Addr) : Bool := l.any (fun e => decide (e.address = a))

/-- `checkAccountStorage`, `arwenmandos/stepCheckAccounts.go` 108-158 -/
def checkStorage (e : CheckAccount) (acc : WAcc) : Bool :=
  e.ignoreStorage ||
  let expected := mapOf e.storage
  (expected.keys ++ acc.storage.keys).all fun k =>
    elrondPrefix.isPrefixOf k ||
    let want := match expected.get? k with
      | some c => c
      | none => if e.moreStorage then CheckBytes.anything else CheckBytes.omitted
    want.check (acc.storageValue k)

/-- the checks of one instance of a token, `arwenmandos/stepCheckAccounts.go` 287-358 -/
def checkInstance (x : CheckInstance) (value : Int) (m : TokenMeta) : Bool :=
  x.balance.check value &&
  (x.creator.unspecified || x.creator.check m.creator) &&
  (x.royalties.unspecified || x.royalties.check (UInt64.ofNat m.royalties.toNat)) &&
  (x.hash.unspecified || x.hash.check m.hash) &&
  decide (m.uris.length ≤ 1) &&
  (x.uri.unspecified || x.uri.check (if m.uris.length = 1 then m.uris.headD [] else [])) &&
  (x.attributes.unspecified || x.attributes.check m.attributes)

/-- the nonce in the metadata of an instance that `loadMockESDTDataInstance` prepared -/
def TokenRec.nonce (t : TokenRec) : UInt64 := (t.metadata.map TokenMeta.nonce).getD 0

/-- `checkTokenInstances`, `arwenmandos/stepCheckAccounts.go` 246-363 -/
def checkInstances (name : Bytes) (x : CheckToken) (t : TokenState) : Bool :=
  let expected := mapOf (x.instances.map fun i => (i.nonce.value, i))
  let actual := mapOf (t.instances.map fun i => (i.nonce, i))
  (expected.keys ++ actual.keys).all fun n =>
    match expected.get? n, actual.get? n with
    | none, some i => checkInstance { nonce := { value := n } } i.value (i.metadata.getD {})
    | some e, some i => checkInstance e i.value (i.metadata.getD {})
    | some e, none => checkInstance e 0 { name := name, nonce := n }
    | none, none => true

/-- `checkTokenRoles`, `arwenmandos/stepCheckAccounts.go` 365-401 -/
def checkRoles (x : CheckToken) (t : TokenState) : Bool :=
  (x.roles ++ t.roles).all fun r => decide (r ∈ x.roles) && decide (r ∈ t.roles)

/-- `checkTokenState`, `arwenmandos/stepCheckAccounts.go` 223-244 -/
def checkToken (name : Bytes) (x : CheckToken) (t : TokenState) : Bool :=
  checkInstances name x t && x.lastNonce.check t.lastNonce && checkRoles x t

/-- `checkAccountESDT`, `arwenmandos/stepCheckAccounts.go` 160-211, with `getExpectedTokens`, 213-221 -/
def checkTokens (C : TokenCodec) (e : CheckAccount) (acc : WAcc) : Bool :=
  e.ignoreTokens ||
  let expected := mapOf (e.tokens.map fun x => (x.name, x))
  match fullTokens C acc.storage with
  | none => false
  | some actual => (expected.keys ++ actual.keys).all fun name =>
      checkToken name ((expected.get? name).getD { name := name }) ((actual.get? name).getD {})

/-- one account of `checkAccounts`, `arwenmandos/stepCheckAccounts.go` 40-102. The account's own address is its key in the world. -/
def checkAccount (C : TokenCodec) (w : MockWorld) (e : CheckAccount) : Bool :=
  match w.account e.address with
  | none => false
  | some acc =>
    e.nonce.check acc.nonce && e.balance.check acc.balance && e.username.check acc.username && e.code.check acc.code &&
    (e.asyncCallData.unspecified || e.asyncCallData.check acc.asyncCallData) && checkStorage e acc && checkTokens C e acc

/-- `ExecuteCheckStateStep` and `checkAccounts`, `arwenmandos/stepCheckAccounts.go` 18-106 -/
def checkState (C : TokenCodec) (c : CheckAccounts) (w : MockWorld) : Bool :=
  (c.moreAccounts || w.accts.keys.all (hasCheck c.accounts)) && c.accounts.all (checkAccount C w)

/-! ### Results of transactions -/

/-- `LogEntry`, `mandos-go/json/model/transaction.go` 89-94 -/
structure CheckLog where
  address : CheckBytes := {}
  identifier : CheckBytes := {}
  topics : List CheckBytes := []
  data : CheckBytes := {}
  deriving DecidableEq, Repr, Inhabited

/-- `TransactionResult`, `mandos-go/json/model/transaction.go` 76-86 -/
structure TxExpect where
  out : List CheckBytes := []
  status : CheckInt := .omitted
  message : CheckBytes := .omitted
  gas : CheckU64 := .omitted
  refund : CheckInt := .omitted
  logsStar : Bool := false
  logs : List CheckLog := []
  deriving DecidableEq, Repr, Inhabited

/-- lists of the same length whose elements pass the checks, as the loops of `arwenmandos/stepCheckTxResult.go` 31-44, 68-108 compare them -/
def checkList {α β : Type} (f : α → β → Bool) : List α → List β → Bool
  | [], [] => true
  | a :: l, b :: r => f a b && checkList f l r
  | _, _ => false

/-- one entry of the log, `arwenmandos/stepCheckTxResult.go` 76-107 -/
def checkLog (c : CheckLog) (l : LogEntry) : Bool :=
  c.address.check l.address && c.identifier.check l.identifier && checkList CheckBytes.check c.topics l.topics && c.data.check l.data

/-- `checkTxResults`, `arwenmandos/stepCheckTxResult.go` 13-111 -/
def checkResult (checkGas : Bool) (c : TxExpect) (o : VMOutput) : Bool :=
  c.status.check o.returnCode.toNat && c.message.check o.returnMessage && checkList CheckBytes.check c.out o.returnData &&
  c.refund.check o.gasRefund && (!checkGas || c.gas.unspecified || c.gas.check o.gasRemaining) &&
  (c.logsStar || checkList checkLog c.logs o.logs)

end Arwen.Mock
