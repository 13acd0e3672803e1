import Verif.Mandos.ScenarioModel
import Verif.Spec.Json
/-!
What C73 says: what a scenario file says, key by key. An object has only the keys of its kind, each key gives one value, in whatever order
they come, and a key that is missing leaves the value at its default.
-/
namespace Arwen.Spec
open Arwen.Mandos

/-! ### Objects -/

/-- the value of a key of an object -/
def valueAt : List (Bytes × Json) → Bytes → Option Json
  | [], _ => none
  | (k, v) :: l, n => if k = n then some v else valueAt l n

/-- the value that a key of the object gives: what the text beside the key says, or the default if the key is missing -/
def AtKey {α : Type} (l : List (Bytes × Json)) (w : Word) (says : Json → α → Prop) (default x : α) : Prop :=
  match valueAt l w.text with
  | some v => says v x
  | none => x = default

/-- there are no other keys -/
def OnlyKeys (l : List (Bytes × Json)) (ws : List Word) : Prop := ∀ p ∈ l, ∃ w ∈ ws, p.1 = w.text

/-- two lists go together, element by element -/
inductive Each {α β : Type} (R : α → β → Prop) : List α → List β → Prop
  | nil : Each R [] []
  | cons {a : α} {b : β} {l : List α} {r : List β} (h : R a b) (t : Each R l r) : Each R (a :: l) (b :: r)

/-- a list of such values -/
def IsList {α : Type} (says : Json → α → Prop) (j : Json) (xs : List α) : Prop := ∃ l, j = .list l ∧ Each says l xs

/-- an object whose keys are data -/
def IsTable {α : Type} (says : Bytes → Json → α → Prop) (j : Json) (xs : List α) : Prop :=
  ∃ l, j = .map l ∧ Each (fun p x => says p.1 p.2 x) l xs

/-- an object whose keys are data, and which may have a key `+` that says that there may be more -/
def IsOpenTable {α : Type} (says : Bytes → Json → α → Prop) (j : Json) (more : Bool) (xs : List α) : Prop :=
  ∃ l, j = .map l ∧ (more = true ↔ ∃ p ∈ l, p.1 = plusText) ∧ Each (fun p x => says p.1 p.2 x) (l.filter fun p => p.1 ≠ plusText) xs

/-! ### Values -/

section
variable (I : Interpreter)

/-- a text -/
def SaysText (j : Json) (s : Bytes) : Prop := j = .str s

/-- an expression for bytes -/
def Stands (s : Bytes) (x : BytesS) : Prop := interpretString I s = .ok x.value ∧ x.original = s

/-- a text with an expression for bytes -/
def SaysBytes (j : Json) (x : BytesS) : Prop := ∃ s, j = .str s ∧ Stands I s x

/-- a tree of expressions for bytes -/
def IsTree (j : Json) (x : BytesT) : Prop := interpretTree I j = .ok x.value ∧ x.original = some j

/-- an expression for a number: the bytes it stands for, as a number without sign -/
def IsAmount (j : Json) (x : BigI) : Prop := ∃ s b, j = .str s ∧ interpretString I s = .ok b ∧ x.value = some (bytesToNat b : Int) ∧ x.original = s

/-- an expression for a number of 64 bits: exactly the number, which therefore fits -/
def IsU64 (j : Json) (x : U64) : Prop := ∃ s b, j = .str s ∧ interpretString I s = .ok b ∧ x.value.toNat = bytesToNat b ∧ x.original = s

/-- an address has 32 bytes -/
def IsAddress (s : Bytes) (x : BytesS) : Prop := Stands I s x ∧ x.value.length = 32

/-- the text `*` -/
def IsStar (j : Json) : Prop := j = .str starText

/-- a check of bytes: anything, or what the tree stands for -/
def IsChkBytes (j : Json) (x : ChkBytes) : Prop :=
  (IsStar j ∧ x = { star := true, original := some (.str starText) }) ∨
  (¬ IsStar j ∧ interpretTree I j = .ok x.value ∧ x.original = some j ∧ x.star = false ∧ x.unspecified = false)

/-- a check of a number: anything, or the number, with a sign or without -/
def IsChkInt (signed : Bool) (j : Json) (x : ChkInt) : Prop :=
  (IsStar j ∧ x = { star := true, original := starText }) ∨
  (¬ IsStar j ∧ ∃ s b, j = .str s ∧ interpretString I s = .ok b ∧
    x = { value := some (if signed then twosFromBytes b else bytesToNat b), original := s })

/-- a check of a number of 64 bits: anything, or exactly the number -/
def IsChkU64 (j : Json) (x : ChkU64) : Prop :=
  (IsStar j ∧ x = { star := true, original := starText }) ∨
  (¬ IsStar j ∧ ∃ s b, j = .str s ∧ interpretString I s = .ok b ∧ x.value.toNat = bytesToNat b ∧ x.original = s ∧
    x.star = false ∧ x.unspecified = false)

/-! ### Tokens -/

/-- the keys of an instance of a token -/
def instanceKeys : List Word := [.nonce, .balance, .creator, .royalties, .hash, .uri, .attributes]

/-- an instance of a token: the creator is an address, royalties are at most 100 per cent -/
structure SaysInstance (l : List (Bytes × Json)) (x : JInstance) : Prop where
  nonce : AtKey l .nonce (IsU64 I) {} x.nonce
  balance : AtKey l .balance (IsAmount I) {} x.balance
  creator : AtKey l .creator (fun j y => SaysBytes I j y ∧ y.value.length = 32) {} x.creator
  royalties : AtKey l .royalties (fun j y => IsU64 I j y ∧ y.value.toNat ≤ 10000) {} x.royalties
  hash : AtKey l .hash (SaysBytes I) {} x.hash
  uri : AtKey l .uri (IsTree I) {} x.uri
  attributes : AtKey l .attributes (SaysBytes I) {} x.attributes

/-- an instance of a token in an object of its own -/
def IsInstance (j : Json) (x : JInstance) : Prop := ∃ l, j = .map l ∧ OnlyKeys l instanceKeys ∧ SaysInstance I l x

/-- a token of an account: an amount, or an object with the fields of one instance, with further instances, and with what holds for all -/
def IsToken (k : Bytes) (j : Json) (x : JToken) : Prop :=
  Stands I k x.name ∧
  ((∃ s b, j = .str s ∧ IsAmount I j b ∧ x = { name := x.name, instances := [{ balance := b }] }) ∨
   ∃ l first further, j = .map l ∧ OnlyKeys l (instanceKeys ++ [.instances, .lastNonce, .roles, .frozen]) ∧ SaysInstance I l first ∧
    AtKey l .instances (IsList (IsInstance I)) [] further ∧
    (((∃ w ∈ instanceKeys, valueAt l w.text ≠ none) ∧ x.instances = first :: further) ∨
      ((∀ w ∈ instanceKeys, valueAt l w.text = none) ∧ x.instances = further)) ∧
    AtKey l .lastNonce (IsU64 I) {} x.lastNonce ∧ AtKey l .roles (IsList SaysText) [] x.roles ∧ AtKey l .frozen (IsU64 I) {} x.frozen)

/-- an instance of a checked token; what is missing is not checked -/
structure SaysChkInstance (l : List (Bytes × Json)) (x : JChkInstance) : Prop where
  nonce : AtKey l .nonce (IsChkU64 I) .missing x.nonce
  balance : AtKey l .balance (IsChkInt I false) .missing x.balance
  creator : AtKey l .creator (IsChkBytes I) .missing x.creator
  royalties : AtKey l .royalties (fun j y => IsChkU64 I j y ∧ y.value.toNat ≤ 10000) .missing x.royalties
  hash : AtKey l .hash (IsChkBytes I) .missing x.hash
  uri : AtKey l .uri (IsChkBytes I) .missing x.uri
  attributes : AtKey l .attributes (IsChkBytes I) .missing x.attributes

/-- an instance of a checked token in an object of its own -/
def IsChkInstance (j : Json) (x : JChkInstance) : Prop := ∃ l, j = .map l ∧ OnlyKeys l instanceKeys ∧ SaysChkInstance I l x

/-- a checked token: an amount, or an object as for tokens of accounts -/
def IsChkToken (k : Bytes) (j : Json) (x : JChkToken) : Prop :=
  Stands I k x.name ∧
  ((∃ s b, j = .str s ∧ IsChkInt I false j b ∧ x = { name := x.name, instances := [{ balance := b }] }) ∨
   ∃ l first further, j = .map l ∧ OnlyKeys l (instanceKeys ++ [.instances, .lastNonce, .roles, .frozen]) ∧ SaysChkInstance I l first ∧
    AtKey l .instances (IsList (IsChkInstance I)) [] further ∧
    (((∃ w ∈ instanceKeys, valueAt l w.text ≠ none) ∧ x.instances = first :: further) ∨
      ((∀ w ∈ instanceKeys, valueAt l w.text = none) ∧ x.instances = further)) ∧
    AtKey l .lastNonce (IsChkU64 I) {} x.lastNonce ∧ AtKey l .roles (IsList SaysText) [] x.roles ∧ AtKey l .frozen (IsChkU64 I) {} x.frozen)

/-- the token that a transaction transfers -/
structure SaysTxToken (l : List (Bytes × Json)) (x : JTxToken) : Prop where
  keys : OnlyKeys l [.tokenIdentifier, .nonce, .value]
  name : AtKey l .tokenIdentifier (SaysBytes I) {} x.name
  nonce : AtKey l .nonce (IsU64 I) {} x.nonce
  value : AtKey l .value (IsAmount I) {} x.value

/-! ### Accounts -/

/-- an entry of a storage -/
def IsEntry (k : Bytes) (j : Json) (x : BytesS × BytesT) : Prop := Stands I k x.1 ∧ IsTree I j x.2

/-- an account -/
structure SaysAccount (k : Bytes) (l : List (Bytes × Json)) (x : JAccount) : Prop where
  keys : OnlyKeys l [.comment, .shard, .nonce, .balance, .esdt, .username, .storage, .code, .owner, .asyncCallData]
  address : IsAddress I k x.address
  comment : AtKey l .comment SaysText [] x.comment
  shard : AtKey l .shard (IsU64 I) {} x.shard
  nonce : AtKey l .nonce (IsU64 I) {} x.nonce
  balance : AtKey l .balance (IsAmount I) .zero x.balance
  tokens : AtKey l .esdt (IsTable (IsToken I)) [] x.tokens
  username : AtKey l .username (SaysBytes I) {} x.username
  storage : AtKey l .storage (IsTable (IsEntry I)) [] x.storage
  code : AtKey l .code (SaysBytes I) {} x.code
  owner : AtKey l .owner (SaysBytes I) {} x.owner
  asyncCallData : AtKey l .asyncCallData SaysText [] x.asyncCallData

/-- accounts by their addresses -/
def IsAccounts : Json → List JAccount → Prop := IsTable fun k j x => ∃ l, j = .map l ∧ SaysAccount I k l x

/-- an entry of a checked storage -/
def IsChkEntry (k : Bytes) (j : Json) (x : BytesS × ChkBytes) : Prop := Stands I k x.1 ∧ IsChkBytes I j x.2

/-- a part of a checked account that may be `*`, may have `+`, and else is complete: whether it is ignored, whether there may be more, and what is
listed -/
def IsPart {α : Type} (says : Bytes → Json → α → Prop) (j : Json) (x : Bool × Bool × List α) : Prop :=
  (IsStar j ∧ x = (true, false, [])) ∨ (¬ IsStar j ∧ x.1 = false ∧ IsOpenTable says j x.2.1 x.2.2)

/-- a checked account; what is missing is not checked, but storage and tokens have to be as listed -/
structure SaysChkAccount (k : Bytes) (l : List (Bytes × Json)) (x : JChkAccount) : Prop where
  keys : OnlyKeys l [.comment, .nonce, .balance, .esdt, .username, .storage, .code, .owner, .asyncCallData]
  address : IsAddress I k x.address
  comment : AtKey l .comment SaysText [] x.comment
  nonce : AtKey l .nonce (IsChkU64 I) .missing x.nonce
  balance : AtKey l .balance (IsChkInt I false) .missing x.balance
  tokens : AtKey l .esdt (IsPart (IsChkToken I)) (false, false, []) (x.ignoreTokens, x.moreTokens, x.tokens)
  username : AtKey l .username (IsChkBytes I) .missing x.username
  storage : AtKey l .storage (IsPart (IsChkEntry I)) (false, false, []) (x.ignoreStorage, x.moreStorage, x.storage)
  code : AtKey l .code (IsChkBytes I) .missing x.code
  owner : AtKey l .owner (IsChkBytes I) .missing x.owner
  asyncCallData : AtKey l .asyncCallData (IsChkBytes I) .missing x.asyncCallData

/-- checked accounts by their addresses -/
def IsChkAccounts (j : Json) (x : JChkAccounts) : Prop :=
  IsOpenTable (fun k j x => ∃ l, j = .map l ∧ SaysChkAccount I k l x) j x.more x.accounts

/-! ### Transactions and their results -/

/-- a transaction of a kind: only deployments have code, only calls and queries have functions, transfers have no arguments, and so on -/
structure SaysTx (kind : JKind) (l : List (Bytes × Json)) (x : JTx) : Prop where
  keys : OnlyKeys l [.nonce, .from, .to, .function, .value, .esdt, .arguments, .contractCode, .gasPrice, .gasLimit]
  ofKind : x.kind = kind
  nonce : AtKey l .nonce (IsU64 I) {} x.nonce
  sender : AtKey l .from (fun j y => kind ≠ .scQuery ∧ kind ≠ .validatorReward ∧ ∃ s, j = .str s ∧ IsAddress I s y) {} x.sender
  to : AtKey l .to (fun j y => ∃ s, j = .str s ∧ ((kind = .scDeploy ∧ s = [] ∧ y = {}) ∨ (kind ≠ .scDeploy ∧ IsAddress I s y))) {} x.to
  function : AtKey l .function (fun j y => SaysText j y ∧ (kind = .scCall ∨ kind = .scQuery ∨ y = [])) [] x.function
  value : AtKey l .value (fun j y => kind ≠ .scQuery ∧ IsAmount I j y) .zero x.value
  token : AtKey l .esdt (fun j y => kind ≠ .scQuery ∧ kind ≠ .validatorReward ∧ ∃ l t, j = .map l ∧ SaysTxToken I l t ∧ y = some t) none x.token
  args : AtKey l .arguments (fun j y => IsList (IsTree I) j y ∧ (kind = .transfer → y = [])) [] x.args
  code : AtKey l .contractCode (fun j y => SaysBytes I j y ∧ (kind ≠ .scDeploy → y.value = [])) {} x.code
  gasPrice : AtKey l .gasPrice (fun j y => kind ≠ .scQuery ∧ kind ≠ .validatorReward ∧ IsU64 I j y) {} x.gasPrice
  gasLimit : AtKey l .gasLimit (fun j y => kind ≠ .scQuery ∧ kind ≠ .validatorReward ∧ IsU64 I j y) {} x.gasLimit

/-- an expected log entry -/
structure SaysLog (l : List (Bytes × Json)) (x : JLog) : Prop where
  keys : OnlyKeys l [.address, .identifier, .topics, .data]
  address : AtKey l .address (IsChkBytes I) {} x.address
  identifier : AtKey l .identifier (IsChkBytes I) {} x.identifier
  topics : AtKey l .topics (IsList (IsChkBytes I)) [] x.topics
  data : AtKey l .data (IsChkBytes I) {} x.data

/-- the expected logs: whether they are missing, whether they are `*`, a hash, and the entries -/
def IsLogs (j : Json) (x : Bool × Bool × Bytes × List JLog) : Prop :=
  (IsStar j ∧ x = (false, true, [], [])) ∨ (¬ IsStar j ∧ ∃ h, j = .str h ∧ x = (false, false, h, [])) ∨
  ∃ logs, IsList (fun j y => ∃ l, j = .map l ∧ SaysLog I l y) j logs ∧ x = (false, false, [], logs)

/-- the expected result of a transaction -/
structure SaysResult (l : List (Bytes × Json)) (x : JResult) : Prop where
  keys : OnlyKeys l [.out, .status, .message, .logs, .gas, .refund]
  out : AtKey l .out (IsList (IsChkBytes I)) [] x.out
  status : AtKey l .status (IsChkInt I true) .missing x.status
  message : AtKey l .message (IsChkBytes I) .missing x.message
  logs : AtKey l .logs (IsLogs I) (true, true, [], []) (x.logsUnspecified, x.logsStar, x.logHash, x.logs)
  gas : AtKey l .gas (IsChkU64 I) .missing x.gas
  refund : AtKey l .refund (IsChkInt I false) .missing x.refund

/-! ### Steps and scenarios -/

/-- the address of the next contract of an account -/
structure SaysNewAddress (l : List (Bytes × Json)) (x : JNewAddress) : Prop where
  keys : OnlyKeys l [.creatorAddress, .creatorNonce, .newAddress]
  creator : AtKey l .creatorAddress (fun j y => ∃ s, j = .str s ∧ IsAddress I s y) {} x.creator
  nonce : AtKey l .creatorNonce (IsU64 I) {} x.nonce
  new : AtKey l .newAddress (fun j y => ∃ s, j = .str s ∧ IsAddress I s y) {} x.new

/-- a block: the seed has 48 bytes -/
structure SaysBlockInfo (l : List (Bytes × Json)) (x : JBlockInfo) : Prop where
  keys : OnlyKeys l [.blockTimestamp, .blockNonce, .blockRound, .blockEpoch, .blockRandomSeed]
  timestamp : AtKey l .blockTimestamp (IsU64 I) {} x.timestamp
  nonce : AtKey l .blockNonce (IsU64 I) {} x.nonce
  round : AtKey l .blockRound (IsU64 I) {} x.round
  epoch : AtKey l .blockEpoch (IsU64 I) {} x.epoch
  seed : AtKey l .blockRandomSeed (fun j y => ∃ b, IsTree I j b ∧ b.value.length = 48 ∧ y = some b) none x.seed

/-- an object with a block -/
def IsBlockInfo (j : Json) (x : Option JBlockInfo) : Prop := ∃ l b, j = .map l ∧ SaysBlockInfo I l b ∧ x = some b

/-- a `setState` step -/
structure SaysSetState (l : List (Bytes × Json)) (x : JSetState) : Prop where
  keys : OnlyKeys l [.step, .comment, .accounts, .newAddresses, .previousBlockInfo, .currentBlockInfo, .blockHashes]
  comment : AtKey l .comment SaysText [] x.comment
  accounts : AtKey l .accounts (IsAccounts I) [] x.accounts
  newAddresses : AtKey l .newAddresses (IsList fun j y => ∃ l, j = .map l ∧ SaysNewAddress I l y) [] x.newAddresses
  previous : AtKey l .previousBlockInfo (IsBlockInfo I) none x.previous
  current : AtKey l .currentBlockInfo (IsBlockInfo I) none x.current
  blockHashes : AtKey l .blockHashes (IsList (SaysBytes I)) [] x.blockHashes

/-- a step with a transaction; only contracts have results, and the transaction comes before its result -/
structure SaysTxStep (kind : JKind) (l : List (Bytes × Json)) (x : JTxStep) : Prop where
  keys : OnlyKeys l [.step, .txId, .comment, .tx, .expect]
  id : AtKey l .txId SaysText [] x.id
  comment : AtKey l .comment SaysText [] x.comment
  tx : AtKey l .tx (fun j y => ∃ l t, j = .map l ∧ SaysTx I kind l t ∧ y = some t) none x.tx
  expect : AtKey l .expect (fun j y => (kind = .scDeploy ∨ kind = .scCall ∨ kind = .scQuery) ∧
    ∃ l r, j = .map l ∧ SaysResult I l r ∧ y = some r) none x.expect
  order : ∀ a v b, l = a ++ (Word.expect.text, v) :: b → ∃ p ∈ a, p.1 = Word.tx.text

/-- a step, by its type -/
def SaysStep (type : Word) (l : List (Bytes × Json)) : JStep → Prop
  | .external comment path => type = .externalSteps ∧ OnlyKeys l [.step, .comment, .path] ∧ AtKey l .comment SaysText [] comment ∧
      AtKey l .path SaysText [] path
  | .setState x => type = .setState ∧ SaysSetState I l x
  | .checkState comment accounts => type = .checkState ∧ OnlyKeys l [.step, .comment, .accounts] ∧ AtKey l .comment SaysText [] comment ∧
      AtKey l .accounts (fun j y => ∃ c, IsChkAccounts I j c ∧ y = some c) none accounts
  | .dumpState comment => type = .dumpState ∧ OnlyKeys l [.step, .comment] ∧ AtKey l .comment SaysText [] comment
  | .tx x => ∃ kind, (type, kind) ∈ [(Word.scCall, JKind.scCall), (.scDeploy, .scDeploy), (.scQuery, .scQuery), (.transfer, .transfer),
      (.validatorReward, .validatorReward)] ∧ SaysTxStep I kind l x

/-- a step -/
def IsStep (j : Json) (x : JStep) : Prop := ∃ l type, j = .map l ∧ valueAt l Word.step.text = some (.str type.text) ∧ SaysStep I type l x

/-- a gas schedule -/
def IsGas (j : Json) (g : JGas) : Prop :=
  ∃ w, j = .str w.text ∧ (w, g) ∈ [(Word.default, JGas.default), (.dummy, .dummy), (.v1, .v1), (.v2, .v2), (.v3, .v3)]

/-- a scenario -/
structure SaysScenario (l : List (Bytes × Json)) (x : JScenario) : Prop where
  keys : OnlyKeys l [.name, .comment, .checkGas, .gasSchedule, .steps]
  name : AtKey l .name SaysText [] x.name
  comment : AtKey l .comment SaysText [] x.comment
  checkGas : AtKey l .checkGas (fun j b => j = .bool b) true x.checkGas
  gas : AtKey l .gasSchedule IsGas .default x.gas
  steps : AtKey l .steps (IsList (IsStep I)) [] x.steps

end

end Arwen.Spec
