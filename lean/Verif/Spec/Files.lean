import Verif.World.Files
import Verif.Spec.Reading
import Verif.Spec.Scenario
/-!
Specification for C74: which scenario a file stands for, and when a directory of files passes. What a file says is C73 (`SaysScenario`), what it means
that a scenario passes is C57 (`Passes`).
-/
namespace Arwen.Spec
open Arwen.Mandos Arwen.Mock

/-! ### From what is written to what is executed: the same values -/

/-- an instance of a token that is set -/
structure TokenInitAs (x : JInstance) (y : TokenInit) : Prop where
  nonce : y.nonce = x.nonce.value
  balance : x.balance.value = some y.balance
  creator : y.creator = x.creator.value
  royalties : y.royalties = x.royalties.value
  hash : y.hash = x.hash.value
  uri : y.uri = x.uri.value
  attributes : y.attributes = x.attributes.value

/-- a token that is set -/
structure TokenSetAs (x : JToken) (y : TokenSet) : Prop where
  name : y.name = x.name.value
  instances : Each TokenInitAs x.instances y.instances
  lastNonce : y.lastNonce = x.lastNonce.value
  roles : y.roles = x.roles
  frozen : y.frozen = x.frozen.value

/-- an entry of storage that is set -/
def EntryAs (x : BytesS × BytesT) (y : Bytes × Bytes) : Prop := y.1 = x.1.value ∧ y.2 = x.2.value

/-- an account that is set -/
structure AccountInitAs (x : JAccount) (y : AccountInit) : Prop where
  address : y.address = x.address.value
  shard : y.shard = x.shard.value
  nonce : y.nonce = x.nonce.value
  balance : x.balance.value = some y.balance
  username : y.username = x.username.value
  storage : Each EntryAs x.storage y.storage
  code : y.code = x.code.value
  owner : y.owner = x.owner.value
  asyncCallData : y.asyncCallData = x.asyncCallData
  tokens : Each TokenSetAs x.tokens y.tokens

/-- nothing for nothing -/
def Both {α β : Type} (R : α → β → Prop) : Option α → Option β → Prop
  | none, none => True
  | some a, some b => R a b
  | _, _ => False

/-- the seed of a block: 48 bytes, which begin with those that are given and go on with zeros -/
def SeedAs (x : Option BytesT) (y : Bytes) : Prop :=
  y.length = 48 ∧ ∀ i, i < 48 → y[i]? = some (((x.map BytesT.value).getD [])[i]?.getD 0)

/-- a block -/
structure BlockAs (x : JBlockInfo) (y : BlockInfo) : Prop where
  timestamp : y.timestamp = x.timestamp.value
  nonce : y.nonce = x.nonce.value
  round : y.round = x.round.value
  epoch : y.epoch.toNat = x.epoch.value.toNat % 2 ^ 32
  seed : ∃ b, y.seed = some b ∧ SeedAs x.seed b

/-- the address of a contract that will be deployed -/
structure NewAddressAs (x : JNewAddress) (y : AddressMock) : Prop where
  creator : y.creator = x.creator.value
  nonce : y.nonce = x.nonce.value
  address : y.address = x.new.value

/-- a `setState` step -/
structure SetStateAs (x : JSetState) (y : SetState) : Prop where
  accounts : Each AccountInitAs x.accounts y.accounts
  previous : Both BlockAs x.previous y.previous
  current : Both BlockAs x.current y.current
  blockhashes : Each (fun a b => b = a.value) x.blockHashes y.blockhashes
  addresses : Each NewAddressAs x.newAddresses y.addressMocks

/-- a check of bytes -/
structure ChkBytesAs (x : ChkBytes) (y : CheckBytes) : Prop where
  value : y.value = x.value
  star : y.star = x.star
  unspecified : y.unspecified = x.unspecified

/-- a check of a number of 64 bits -/
structure ChkU64As (x : ChkU64) (y : CheckU64) : Prop where
  value : y.value = x.value
  star : y.star = x.star
  unspecified : y.unspecified = x.unspecified

/-- a check of a number; there need not be a number if everything is accepted -/
structure ChkIntAs (x : ChkInt) (y : CheckInt) : Prop where
  value : x.value = some y.value ∨ x.value = none ∧ x.star = true ∧ y.value = 0
  star : y.star = x.star
  unspecified : y.unspecified = x.unspecified

/-- a check of an instance of a token -/
structure ChkInstanceAs (x : JChkInstance) (y : CheckInstance) : Prop where
  nonce : ChkU64As x.nonce y.nonce
  balance : ChkIntAs x.balance y.balance
  creator : ChkBytesAs x.creator y.creator
  royalties : ChkU64As x.royalties y.royalties
  hash : ChkBytesAs x.hash y.hash
  uri : ChkBytesAs x.uri y.uri
  attributes : ChkBytesAs x.attributes y.attributes

/-- a check of a token -/
structure ChkTokenAs (x : JChkToken) (y : CheckToken) : Prop where
  name : y.name = x.name.value
  instances : Each ChkInstanceAs x.instances y.instances
  lastNonce : ChkU64As x.lastNonce y.lastNonce
  roles : y.roles = x.roles
  frozen : ChkU64As x.frozen y.frozen

/-- a check of an entry of storage -/
def ChkEntryAs (x : BytesS × ChkBytes) (y : Bytes × CheckBytes) : Prop := y.1 = x.1.value ∧ ChkBytesAs x.2 y.2

/-- a check of an account -/
structure ChkAccountAs (x : JChkAccount) (y : CheckAccount) : Prop where
  address : y.address = x.address.value
  nonce : ChkU64As x.nonce y.nonce
  balance : ChkIntAs x.balance y.balance
  username : ChkBytesAs x.username y.username
  storage : Each ChkEntryAs x.storage y.storage
  ignoreStorage : y.ignoreStorage = x.ignoreStorage
  moreStorage : y.moreStorage = x.moreStorage
  code : ChkBytesAs x.code y.code
  owner : ChkBytesAs x.owner y.owner
  asyncCallData : ChkBytesAs x.asyncCallData y.asyncCallData
  tokens : Each ChkTokenAs x.tokens y.tokens
  ignoreTokens : y.ignoreTokens = x.ignoreTokens
  moreTokens : y.moreTokens = x.moreTokens

/-- a `checkState` step -/
structure ChkAccountsAs (x : JChkAccounts) (y : CheckAccounts) : Prop where
  accounts : Each ChkAccountAs x.accounts y.accounts
  more : y.moreAccounts = x.more

/-- the kind of a transaction -/
inductive KindAs : JKind → TxKind → Prop
  | scDeploy : KindAs .scDeploy .scDeploy
  | scCall : KindAs .scCall .scCall
  | scQuery : KindAs .scQuery .scQuery
  | transfer : KindAs .transfer .transfer
  | validatorReward : KindAs .validatorReward .validatorReward

/-- the gas schedule -/
inductive GasAs : JGas → GasKind → Prop
  | default : GasAs .default .default
  | dummy : GasAs .dummy .dummy
  | v1 : GasAs .v1 .v1
  | v2 : GasAs .v2 .v2
  | v3 : GasAs .v3 .v3

/-- a token that is sent along -/
structure SentAs (x : JTxToken) (y : EsdtTx) : Prop where
  token : y.token = x.name.value
  nonce : y.nonce = x.nonce.value
  value : x.value.value = some y.value

/-- a transaction -/
structure TxAs (x : JTx) (y : ScTx) : Prop where
  kind : KindAs x.kind y.kind
  value : x.value.value = some y.value
  token : Both SentAs x.token y.esdt
  sender : y.sender = x.sender.value
  to : y.to = x.to.value
  function : y.function = x.function
  code : y.code = x.code.value
  args : Each (fun a b => b = a.value) x.args y.args
  gasPrice : y.gasPrice = x.gasPrice.value
  gasLimit : y.gasLimit = x.gasLimit.value

/-- an entry of the log that is expected -/
structure ChkLogAs (x : JLog) (y : CheckLog) : Prop where
  address : ChkBytesAs x.address y.address
  identifier : ChkBytesAs x.identifier y.identifier
  topics : Each ChkBytesAs x.topics y.topics
  data : ChkBytesAs x.data y.data

/-- the result that is expected, without the hash of the log -/
structure ExpectAs (x : JResult) (y : TxExpect) : Prop where
  out : Each ChkBytesAs x.out y.out
  status : ChkIntAs x.status y.status
  message : ChkBytesAs x.message y.message
  gas : ChkU64As x.gas y.gas
  refund : ChkIntAs x.refund y.refund
  logsStar : y.logsStar = x.logsStar
  logs : Each ChkLogAs x.logs y.logs

/-- a step with a transaction -/
structure TxStepAs (x : JTxStep) (y : TxStep) : Prop where
  id : y.id = x.id
  tx : ∃ t, x.tx = some t ∧ TxAs t y.tx
  expect : Both ExpectAs x.expect y.expect

/-! ### Files -/

/-- where the file is that is named in another one: what it was replaced by, or else beside the one that names it -/
def placeOf (D : FileSystem) (swaps : AMap Bytes Bytes) (file name : Bytes) : Bytes :=
  match swaps.get? name with
  | some p => p
  | none => D.join (D.dir file) name

/-- how the expressions in a file are evaluated: the names of files in them are relative to the file, too -/
def within (D : FileSystem) (swaps : AMap Bytes Bytes) (file : Bytes) : Interpreter :=
  { resolver := some fun name => if name = [] then some [] else D.read (placeOf D swaps file name), keccak := D.keccak }

/-- the file at the path can be read, and says this (C73) -/
structure FileSays (D : FileSystem) (swaps : AMap Bytes Bytes) (path file : Bytes) (x : JScenario) : Prop where
  abs : D.abs path = some file
  says : ∃ content l, D.read file = some content ∧ parseOrderedJson content = .ok (some (.map l)) ∧ SaysScenario (within D swaps file) l x

/-- the steps that are written in a file stand for these: the values are the same, and a step that refers to another file
stands for the scenario in that file -/
inductive StepsAre (D : FileSystem) (swaps : AMap Bytes Bytes) : Bytes → List JStep → List Step → Prop
  | nil {file : Bytes} : StepsAre D swaps file [] []
  | external {file comment name other : Bytes} {x : JScenario} {gas : GasKind} {steps rest' : List Step} {rest : List JStep} :
      FileSays D swaps (placeOf D swaps file name) other x → GasAs x.gas gas → StepsAre D swaps other x.steps steps →
      StepsAre D swaps file rest rest' →
      StepsAre D swaps file (.external comment name :: rest) (.external x.checkGas gas steps :: rest')
  | setState {file : Bytes} {x : JSetState} {y : SetState} {rest : List JStep} {rest' : List Step} :
      SetStateAs x y → StepsAre D swaps file rest rest' → StepsAre D swaps file (.setState x :: rest) (.setState y :: rest')
  | checkState {file comment : Bytes} {x : JChkAccounts} {y : CheckAccounts} {rest : List JStep} {rest' : List Step} :
      ChkAccountsAs x y → StepsAre D swaps file rest rest' →
      StepsAre D swaps file (.checkState comment (some x) :: rest) (.checkState y :: rest')
  | tx {file : Bytes} {x : JTxStep} {y : TxStep} {rest : List JStep} {rest' : List Step} :
      TxStepAs x y → StepsAre D swaps file rest rest' → StepsAre D swaps file (.tx x :: rest) (.tx y :: rest')
  | dump {file comment : Bytes} {rest : List JStep} {rest' : List Step} :
      StepsAre D swaps file rest rest' → StepsAre D swaps file (.dumpState comment :: rest) (.dump :: rest')

/-- the file at the path stands for the scenario -/
def FileIs (D : FileSystem) (swaps : AMap Bytes Bytes) (path : Bytes) (sc : Scenario) : Prop :=
  ∃ file x, FileSays D swaps path file x ∧ sc.checkGas = x.checkGas ∧ GasAs x.gas sc.gas ∧ StepsAre D swaps file x.steps sc.steps

/-! ### Directories -/

/-- the paths at and below a path -/
inductive Beneath (D : FileSystem) : Bytes → DirTree → Bytes → Prop
  | here {path : Bytes} {t : DirTree} : Beneath D path t path
  | there {path name p : Bytes} {entries : List (Bytes × DirTree)} {t : DirTree} :
      (name, t) ∈ entries → Beneath D (D.join path name) t p → Beneath D path (.dir entries) p

/-- a path that is excluded -/
def Excluded (D : FileSystem) (general : Bytes) (excluded : List Bytes) (p : Bytes) : Prop :=
  ∃ e ∈ excluded, D.glob (D.join general e) p = some true

/-- all patterns are well-formed -/
def GoodPatterns (D : FileSystem) (general : Bytes) (excluded : List Bytes) : Prop := ∀ e ∈ excluded, ∀ p, D.glob (D.join general e) p ≠ none

/-- a path is that of a scenario that is run -/
def IsScenarioPath (D : FileSystem) (general suffix : Bytes) (excluded : List Bytes) (p : Bytes) : Prop :=
  (∃ start, p = start ++ suffix) ∧ ¬ Excluded D general excluded p

/-- Paths are visited one after the other: each that is that of a scenario stands for one that passes with the machine as the one before left
it, and with an empty world. -/
inductive InTurn {A : Type} (D : FileSystem) (swaps : AMap Bytes Bytes) (general suffix : Bytes) (excluded : List Bytes)
    (env : GasSchedule → Env MockWorld A) (L : Lib) (n : Nat) (C : TokenCodec) (load : GasKind → Option GasSchedule) :
    List Bytes → Runner A → Runner A → Prop
  | done {x : Runner A} : InTurn D swaps general suffix excluded env L n C load [] x x
  | other {p : Bytes} {rest : List Bytes} {x z : Runner A} : ¬ IsScenarioPath D general suffix excluded p →
      InTurn D swaps general suffix excluded env L n C load rest x z → InTurn D swaps general suffix excluded env L n C load (p :: rest) x z
  | next {p : Bytes} {rest : List Bytes} {sc : Scenario} {x y z : Runner A} : IsScenarioPath D general suffix excluded p →
      FileIs D swaps p sc → runScenario env L n C load sc { x with st := { x.st with world := x.st.world.clear } } = (.passed, y) →
      InTurn D swaps general suffix excluded env L n C load rest y z → InTurn D swaps general suffix excluded env L n C load (p :: rest) x z

end Arwen.Spec
