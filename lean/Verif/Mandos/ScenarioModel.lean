import Verif.Mandos.Expr
/-!
Scenarios as they are read from and written to JSON: `mandos-go/json/model`. Slices that are nil and slices without elements are not told
apart. Pointers to parts that are always there are left out.
-/
namespace Arwen.Mandos

/-! ### Values with the text they were written as -/

/-- `JSONBytesFromString`, `mandos-go/json/model/valueInit.go` 10-13 -/
structure BytesS where
  value : Bytes := []
  original : Bytes := []
  deriving DecidableEq

/-- `JSONBytesFromTree`, `mandos-go/json/model/valueInit.go` 27-30; the original is nil in a fresh value -/
structure BytesT where
  value : Bytes := []
  original : Option Json := none

/-- `JSONBigInt`, `mandos-go/json/model/valueInit.go` 41-44; the value is nil in a fresh one -/
structure BigI where
  value : Option Int := none
  original : Bytes := []
  deriving DecidableEq

/-- `JSONBigIntZero`, `mandos-go/json/model/valueInit.go` 47-52 -/
def BigI.zero : BigI := { value := some 0 }

/-- `JSONUint64`, `mandos-go/json/model/valueInit.go` 55-58; `JSONUint64Zero`, 61-66, is a fresh one -/
structure U64 where
  value : UInt64 := 0
  original : Bytes := []
  deriving DecidableEq

/-- `JSONCheckBytes`, `mandos-go/json/model/valueCheck.go` 13-18 -/
structure ChkBytes where
  value : Bytes := []
  star : Bool := false
  original : Option Json := none
  unspecified : Bool := false

/-- `JSONCheckBytesUnspecified`, `mandos-go/json/model/valueCheck.go` 21-28 -/
def ChkBytes.missing : ChkBytes := { original := some (.str []), unspecified := true }

/-- `*` -/
def starText : Bytes := [42]
/-- `+` -/
def plusText : Bytes := [43]

/-- `JSONCheckBytesStar`, `mandos-go/json/model/valueCheck.go` 31-38 -/
def ChkBytes.any : ChkBytes := { star := true, original := some (.str starText) }

/-- `JSONCheckBigInt`, `mandos-go/json/model/valueCheck.go` 75-80 -/
structure ChkInt where
  value : Option Int := none
  star : Bool := false
  original : Bytes := []
  unspecified : Bool := false
  deriving DecidableEq

/-- `JSONCheckBigIntUnspecified`, `mandos-go/json/model/valueCheck.go` 83-90 -/
def ChkInt.missing : ChkInt := { value := some 0, unspecified := true }

/-- `JSONCheckUint64`, `mandos-go/json/model/valueCheck.go` 109-114 -/
structure ChkU64 where
  value : UInt64 := 0
  star : Bool := false
  original : Bytes := []
  unspecified : Bool := false
  deriving DecidableEq

/-- `JSONCheckUint64Unspecified`, `mandos-go/json/model/valueCheck.go` 117-124 -/
def ChkU64.missing : ChkU64 := { unspecified := true }

/-! ### Tokens and accounts -/

/-- `ESDTTxData`, `mandos-go/json/model/esdt.go` 4-8 -/
structure JTxToken where
  name : BytesS := {}
  nonce : U64 := {}
  value : BigI := {}
  deriving DecidableEq

/-- `ESDTInstance`, `mandos-go/json/model/esdt.go` 11-19 -/
structure JInstance where
  nonce : U64 := {}
  balance : BigI := {}
  creator : BytesS := {}
  royalties : U64 := {}
  hash : BytesS := {}
  uri : BytesT := {}
  attributes : BytesS := {}

/-- `ESDTData`, `mandos-go/json/model/esdt.go` 22-28 -/
structure JToken where
  name : BytesS
  instances : List JInstance := []
  lastNonce : U64 := {}
  roles : List Bytes := []
  frozen : U64 := {}

/-- `CheckESDTInstance`, `mandos-go/json/model/esdt.go` 31-39 -/
structure JChkInstance where
  nonce : ChkU64 := {}
  balance : ChkInt := {}
  creator : ChkBytes := {}
  royalties : ChkU64 := {}
  hash : ChkBytes := {}
  uri : ChkBytes := {}
  attributes : ChkBytes := {}

/-- `NewCheckESDTInstance`, `mandos-go/json/model/esdt.go` 42-52 -/
def JChkInstance.fresh : JChkInstance :=
  { nonce := .missing, balance := .missing, creator := .missing, royalties := .missing, hash := .missing, uri := .missing,
    attributes := .missing }

/-- `CheckESDTData`, `mandos-go/json/model/esdt.go` 55-61 -/
structure JChkToken where
  name : BytesS
  instances : List JChkInstance := []
  lastNonce : ChkU64 := {}
  roles : List Bytes := []
  frozen : ChkU64 := {}

/-- `Account`, `mandos-go/json/model/account.go` 6-19, without `IsSmartContract`, which is never set; the initial values are those of
`processAccount`, `mandos-go/json/parse/parseAccounts.go` 28-40 -/
structure JAccount where
  address : BytesS := {}
  shard : U64 := {}
  comment : Bytes := []
  nonce : U64 := {}
  balance : BigI := .zero
  username : BytesS := {}
  storage : List (BytesS × BytesT) := []
  code : BytesS := {}
  owner : BytesS := {}
  asyncCallData : Bytes := []
  tokens : List JToken := []

/-- `CheckAccount`, `mandos-go/json/model/account.go` 28-43; the initial values are those of `processCheckAccount`,
`mandos-go/json/parse/parseAccountsCheck.go` 17-31 -/
structure JChkAccount where
  address : BytesS := {}
  comment : Bytes := []
  nonce : ChkU64 := .missing
  balance : ChkInt := .missing
  username : ChkBytes := .missing
  storage : List (BytesS × ChkBytes) := []
  ignoreStorage : Bool := false
  moreStorage : Bool := false
  code : ChkBytes := .missing
  owner : ChkBytes := .missing
  asyncCallData : ChkBytes := .missing
  tokens : List JChkToken := []
  ignoreTokens : Bool := false
  moreTokens : Bool := false

/-- `CheckAccounts`, `mandos-go/json/model/account.go` 52-55 -/
structure JChkAccounts where
  accounts : List JChkAccount := []
  more : Bool := false

/-! ### Transactions -/

/-- `TransactionType`, `mandos-go/json/model/transaction.go` 3-23 -/
inductive JKind | scDeploy | scCall | scQuery | transfer | validatorReward
  deriving DecidableEq

/-- `HasSender`, `mandos-go/json/model/transaction.go` 26-28 -/
def JKind.hasSender (k : JKind) : Bool := k ≠ .scQuery && k ≠ .validatorReward
/-- `HasReceiver`, `mandos-go/json/model/transaction.go` 31-33 -/
def JKind.hasReceiver (k : JKind) : Bool := k ≠ .scDeploy
/-- `IsSmartContractTx`, `mandos-go/json/model/transaction.go` 36-38 -/
def JKind.isContractTx (k : JKind) : Bool := k = .scDeploy || k = .scCall || k = .scQuery
/-- `HasValue`, `mandos-go/json/model/transaction.go` 41-43 -/
def JKind.hasValue (k : JKind) : Bool := k ≠ .scQuery
/-- `HasESDT`, `mandos-go/json/model/transaction.go` 46-48 -/
def JKind.hasTokens (k : JKind) : Bool := k ≠ .scQuery && k ≠ .validatorReward
/-- `HasFunction`, `mandos-go/json/model/transaction.go` 51-53 -/
def JKind.hasFunction (k : JKind) : Bool := k = .scCall || k = .scQuery
/-- `HasGas`, `mandos-go/json/model/transaction.go` 56-58 -/
def JKind.hasGas (k : JKind) : Bool := k = .scDeploy || k = .scCall || k.hasTokens

/-- `Transaction`, `mandos-go/json/model/transaction.go` 61-73 -/
structure JTx where
  kind : JKind
  nonce : U64 := {}
  value : BigI := .zero
  token : Option JTxToken := none
  sender : BytesS := {}
  to : BytesS := {}
  function : Bytes := []
  code : BytesS := {}
  args : List BytesT := []
  gasPrice : U64 := {}
  gasLimit : U64 := {}

/-- `LogEntry`, `mandos-go/json/model/transaction.go` 89-94 -/
structure JLog where
  address : ChkBytes := {}
  identifier : ChkBytes := {}
  topics : List ChkBytes := []
  data : ChkBytes := {}

/-- `TransactionResult`, `mandos-go/json/model/transaction.go` 76-86; the initial values are those of `processTxExpectedResult`,
`mandos-go/json/parse/parseTxResult.go` 17-24 -/
structure JResult where
  out : List ChkBytes := []
  status : ChkInt := .missing
  message : ChkBytes := .missing
  gas : ChkU64 := .missing
  refund : ChkInt := .missing
  logsStar : Bool := true
  logsUnspecified : Bool := true
  logHash : Bytes := []
  logs : List JLog := []

/-! ### Steps -/

/-- `NewAddressMock`, `mandos-go/json/model/structScenario.go` 18-22 -/
structure JNewAddress where
  creator : BytesS := {}
  nonce : U64 := {}
  new : BytesS := {}
  deriving DecidableEq

/-- `BlockInfo`, `mandos-go/json/model/structScenario.go` 25-31 -/
structure JBlockInfo where
  timestamp : U64 := {}
  nonce : U64 := {}
  round : U64 := {}
  epoch : U64 := {}
  seed : Option BytesT := none

/-- `SetStateStep`, `mandos-go/json/model/structScenario.go` 40-47 -/
structure JSetState where
  comment : Bytes := []
  accounts : List JAccount := []
  previous : Option JBlockInfo := none
  current : Option JBlockInfo := none
  blockHashes : List BytesS := []
  newAddresses : List JNewAddress := []

/-- `TxStep`, `mandos-go/json/model/structScenario.go` 61-66 -/
structure JTxStep where
  id : Bytes := []
  comment : Bytes := []
  tx : Option JTx := none
  expect : Option JResult := none

/-- the steps, `mandos-go/json/model/structScenario.go` 13-66 -/
inductive JStep
  | external (comment path : Bytes)
  | setState (x : JSetState)
  | checkState (comment : Bytes) (accounts : Option JChkAccounts)
  | dumpState (comment : Bytes)
  | tx (x : JTxStep)

/-- `GasSchedule`, `mandos-go/json/model/gasSchedule.go` 4-22 -/
inductive JGas | default | dummy | v1 | v2 | v3
  deriving DecidableEq

/-- `Scenario`, `mandos-go/json/model/structScenario.go` 4-10; the initial values are those of `ParseScenarioFile`,
`mandos-go/json/parse/parseScenario.go` 23-26 -/
structure JScenario where
  name : Bytes := []
  comment : Bytes := []
  checkGas : Bool := true
  gas : JGas := .default
  steps : List JStep := []

/-! ### The words of the format -/

/-- the names of fields, steps and gas schedules, those of old tests at the end -/
inductive Word
  | name | comment | checkGas | gasSchedule | steps | step | default | dummy | v1 | v2 | v3
  | externalSteps | setState | checkState | dumpState | scCall | scDeploy | scQuery | transfer | validatorReward
  | path | accounts | newAddresses | previousBlockInfo | currentBlockInfo | blockHashes | txId | tx | expect
  | creatorAddress | creatorNonce | newAddress | blockTimestamp | blockNonce | blockRound | blockEpoch | blockRandomSeed
  | shard | nonce | balance | esdt | username | storage | code | owner | asyncCallData
  | instances | lastNonce | roles | frozen | creator | royalties | hash | uri | attributes
  | from | to | function | value | arguments | contractCode | gasPrice | gasLimit | tokenIdentifier
  | out | status | message | logs | gas | refund | address | identifier | topics | data
  | pre | blocks | network | postState | results | transactions | blockHeader | number | difficulty | timestamp | coinbase
  deriving DecidableEq

/-- the spelling of words: the literals of `mandos-go/json/parse`, `mandos-go/json/write` and `mandos-go/json/model/structScenario.go` 74-123 -/
def Word.text : Word → Bytes
  | .name => ascii ['n', 'a', 'm', 'e']
  | .comment => ascii ['c', 'o', 'm', 'm', 'e', 'n', 't']
  | .checkGas => ascii ['c', 'h', 'e', 'c', 'k', 'G', 'a', 's']
  | .gasSchedule => ascii ['g', 'a', 's', 'S', 'c', 'h', 'e', 'd', 'u', 'l', 'e']
  | .steps => ascii ['s', 't', 'e', 'p', 's']
  | .step => ascii ['s', 't', 'e', 'p']
  | .default => ascii ['d', 'e', 'f', 'a', 'u', 'l', 't']
  | .dummy => ascii ['d', 'u', 'm', 'm', 'y']
  | .v1 => ascii ['v', '1']
  | .v2 => ascii ['v', '2']
  | .v3 => ascii ['v', '3']
  | .externalSteps => ascii ['e', 'x', 't', 'e', 'r', 'n', 'a', 'l', 'S', 't', 'e', 'p', 's']
  | .setState => ascii ['s', 'e', 't', 'S', 't', 'a', 't', 'e']
  | .checkState => ascii ['c', 'h', 'e', 'c', 'k', 'S', 't', 'a', 't', 'e']
  | .dumpState => ascii ['d', 'u', 'm', 'p', 'S', 't', 'a', 't', 'e']
  | .scCall => ascii ['s', 'c', 'C', 'a', 'l', 'l']
  | .scDeploy => ascii ['s', 'c', 'D', 'e', 'p', 'l', 'o', 'y']
  | .scQuery => ascii ['s', 'c', 'Q', 'u', 'e', 'r', 'y']
  | .transfer => ascii ['t', 'r', 'a', 'n', 's', 'f', 'e', 'r']
  | .validatorReward => ascii ['v', 'a', 'l', 'i', 'd', 'a', 't', 'o', 'r', 'R', 'e', 'w', 'a', 'r', 'd']
  | .path => ascii ['p', 'a', 't', 'h']
  | .accounts => ascii ['a', 'c', 'c', 'o', 'u', 'n', 't', 's']
  | .newAddresses => ascii ['n', 'e', 'w', 'A', 'd', 'd', 'r', 'e', 's', 's', 'e', 's']
  | .previousBlockInfo => ascii ['p', 'r', 'e', 'v', 'i', 'o', 'u', 's', 'B', 'l', 'o', 'c', 'k', 'I', 'n', 'f', 'o']
  | .currentBlockInfo => ascii ['c', 'u', 'r', 'r', 'e', 'n', 't', 'B', 'l', 'o', 'c', 'k', 'I', 'n', 'f', 'o']
  | .blockHashes => ascii ['b', 'l', 'o', 'c', 'k', 'H', 'a', 's', 'h', 'e', 's']
  | .txId => ascii ['t', 'x', 'I', 'd']
  | .tx => ascii ['t', 'x']
  | .expect => ascii ['e', 'x', 'p', 'e', 'c', 't']
  | .creatorAddress => ascii ['c', 'r', 'e', 'a', 't', 'o', 'r', 'A', 'd', 'd', 'r', 'e', 's', 's']
  | .creatorNonce => ascii ['c', 'r', 'e', 'a', 't', 'o', 'r', 'N', 'o', 'n', 'c', 'e']
  | .newAddress => ascii ['n', 'e', 'w', 'A', 'd', 'd', 'r', 'e', 's', 's']
  | .blockTimestamp => ascii ['b', 'l', 'o', 'c', 'k', 'T', 'i', 'm', 'e', 's', 't', 'a', 'm', 'p']
  | .blockNonce => ascii ['b', 'l', 'o', 'c', 'k', 'N', 'o', 'n', 'c', 'e']
  | .blockRound => ascii ['b', 'l', 'o', 'c', 'k', 'R', 'o', 'u', 'n', 'd']
  | .blockEpoch => ascii ['b', 'l', 'o', 'c', 'k', 'E', 'p', 'o', 'c', 'h']
  | .blockRandomSeed => ascii ['b', 'l', 'o', 'c', 'k', 'R', 'a', 'n', 'd', 'o', 'm', 'S', 'e', 'e', 'd']
  | .shard => ascii ['s', 'h', 'a', 'r', 'd']
  | .nonce => ascii ['n', 'o', 'n', 'c', 'e']
  | .balance => ascii ['b', 'a', 'l', 'a', 'n', 'c', 'e']
  | .esdt => ascii ['e', 's', 'd', 't']
  | .username => ascii ['u', 's', 'e', 'r', 'n', 'a', 'm', 'e']
  | .storage => ascii ['s', 't', 'o', 'r', 'a', 'g', 'e']
  | .code => ascii ['c', 'o', 'd', 'e']
  | .owner => ascii ['o', 'w', 'n', 'e', 'r']
  | .asyncCallData => ascii ['a', 's', 'y', 'n', 'c', 'C', 'a', 'l', 'l', 'D', 'a', 't', 'a']
  | .instances => ascii ['i', 'n', 's', 't', 'a', 'n', 'c', 'e', 's']
  | .lastNonce => ascii ['l', 'a', 's', 't', 'N', 'o', 'n', 'c', 'e']
  | .roles => ascii ['r', 'o', 'l', 'e', 's']
  | .frozen => ascii ['f', 'r', 'o', 'z', 'e', 'n']
  | .creator => ascii ['c', 'r', 'e', 'a', 't', 'o', 'r']
  | .royalties => ascii ['r', 'o', 'y', 'a', 'l', 't', 'i', 'e', 's']
  | .hash => ascii ['h', 'a', 's', 'h']
  | .uri => ascii ['u', 'r', 'i']
  | .attributes => ascii ['a', 't', 't', 'r', 'i', 'b', 'u', 't', 'e', 's']
  | .from => ascii ['f', 'r', 'o', 'm']
  | .to => ascii ['t', 'o']
  | .function => ascii ['f', 'u', 'n', 'c', 't', 'i', 'o', 'n']
  | .value => ascii ['v', 'a', 'l', 'u', 'e']
  | .arguments => ascii ['a', 'r', 'g', 'u', 'm', 'e', 'n', 't', 's']
  | .contractCode => ascii ['c', 'o', 'n', 't', 'r', 'a', 'c', 't', 'C', 'o', 'd', 'e']
  | .gasPrice => ascii ['g', 'a', 's', 'P', 'r', 'i', 'c', 'e']
  | .gasLimit => ascii ['g', 'a', 's', 'L', 'i', 'm', 'i', 't']
  | .tokenIdentifier => ascii ['t', 'o', 'k', 'e', 'n', 'I', 'd', 'e', 'n', 't', 'i', 'f', 'i', 'e', 'r']
  | .out => ascii ['o', 'u', 't']
  | .status => ascii ['s', 't', 'a', 't', 'u', 's']
  | .message => ascii ['m', 'e', 's', 's', 'a', 'g', 'e']
  | .logs => ascii ['l', 'o', 'g', 's']
  | .gas => ascii ['g', 'a', 's']
  | .refund => ascii ['r', 'e', 'f', 'u', 'n', 'd']
  | .address => ascii ['a', 'd', 'd', 'r', 'e', 's', 's']
  | .identifier => ascii ['i', 'd', 'e', 'n', 't', 'i', 'f', 'i', 'e', 'r']
  | .topics => ascii ['t', 'o', 'p', 'i', 'c', 's']
  | .data => ascii ['d', 'a', 't', 'a']
  | .pre => ascii ['p', 'r', 'e']
  | .blocks => ascii ['b', 'l', 'o', 'c', 'k', 's']
  | .network => ascii ['n', 'e', 't', 'w', 'o', 'r', 'k']
  | .postState => ascii ['p', 'o', 's', 't', 'S', 't', 'a', 't', 'e']
  | .results => ascii ['r', 'e', 's', 'u', 'l', 't', 's']
  | .transactions => ascii ['t', 'r', 'a', 'n', 's', 'a', 'c', 't', 'i', 'o', 'n', 's']
  | .blockHeader => ascii ['b', 'l', 'o', 'c', 'k', 'H', 'e', 'a', 'd', 'e', 'r']
  | .number => ascii ['n', 'u', 'm', 'b', 'e', 'r']
  | .difficulty => ascii ['d', 'i', 'f', 'f', 'i', 'c', 'u', 'l', 't', 'y']
  | .timestamp => ascii ['t', 'i', 'm', 'e', 's', 't', 'a', 'm', 'p']
  | .coinbase => ascii ['c', 'o', 'i', 'n', 'b', 'a', 's', 'e']

/-- all words -/
def Word.all : List Word :=
  [.name, .comment, .checkGas, .gasSchedule, .steps, .step, .default, .dummy, .v1, .v2, .v3, .externalSteps,
   .setState, .checkState, .dumpState, .scCall, .scDeploy, .scQuery, .transfer, .validatorReward, .path, .accounts, .newAddresses, .previousBlockInfo,
   .currentBlockInfo, .blockHashes, .txId, .tx, .expect, .creatorAddress, .creatorNonce, .newAddress, .blockTimestamp, .blockNonce, .blockRound, .blockEpoch,
   .blockRandomSeed, .shard, .nonce, .balance, .esdt, .username, .storage, .code, .owner, .asyncCallData, .instances, .lastNonce,
   .roles, .frozen, .creator, .royalties, .hash, .uri, .attributes, .from, .to, .function, .value, .arguments,
   .contractCode, .gasPrice, .gasLimit, .tokenIdentifier, .out, .status, .message, .logs, .gas, .refund, .address, .identifier,
   .topics, .data, .pre, .blocks, .network, .postState, .results, .transactions, .blockHeader, .number,
   .difficulty, .timestamp, .coinbase]

/-- the word that is spelled so, as the `switch` statements of the parser find it -/
def Word.of? (s : Bytes) : Option Word := Word.all.find? (fun w => w.text = s)

end Arwen.Mandos
