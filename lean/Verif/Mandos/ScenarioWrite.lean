import Verif.Mandos.ScenarioModel
/-!
The writer of scenarios: `mandos-go/json/write`. A tree with a nil in it, which cannot be turned into a text, and a nil pointer that is
dereferenced while the tree is built are both `none`: the program panics.
-/
namespace Arwen.Mandos

/-- the pairs put into a map so far -/
abbrev Pairs := List (Bytes × Json)

/-- `Put` of a value under a key -/
def putAt (k : Bytes) (v : Option Json) (m : Option Pairs) : Option Pairs := m.bind fun l => v.map fun j => putKey l k j

/-- `Put` under a word -/
def put (w : Word) (v : Option Json) (m : Option Pairs) : Option Pairs := putAt w.text v m

/-- `Put` under a condition -/
def putIf (c : Bool) (w : Word) (v : Option Json) (m : Option Pairs) : Option Pairs := if c then put w v m else m

/-- the elements of a list, all of which can be written -/
def writeAll {α : Type} (f : α → Option Json) : List α → Option (List Json)
  | [] => some []
  | a :: l => (f a).bind fun j => (writeAll f l).map (j :: ·)

/-- a list of elements -/
def listOf {α : Type} (f : α → Option Json) (l : List α) : Option Json := (writeAll f l).map Json.list

/-- a finished map -/
def done (m : Option Pairs) : Option Json := m.map Json.map

/-! ### Values: `writeCommon.go` -/

/-- `stringToOJ`, `mandos-go/json/write/writeCommon.go` 154-156 -/
def strJ (s : Bytes) : Option Json := some (.str s)

/-- `bigIntToOJ`, `mandos-go/json/write/writeCommon.go` 113-115 -/
def BigI.json (x : BigI) : Option Json := strJ x.original
/-- `checkBigIntToOJ`, `mandos-go/json/write/writeCommon.go` 117-119 -/
def ChkInt.json (x : ChkInt) : Option Json := strJ x.original
/-- `uint64ToOJ`, `mandos-go/json/write/writeCommon.go` 146-148 -/
def U64.json (x : U64) : Option Json := strJ x.original
/-- `checkUint64ToOJ`, `mandos-go/json/write/writeCommon.go` 150-152 -/
def ChkU64.json (x : ChkU64) : Option Json := strJ x.original

/-- `bytesFromStringToString`, `mandos-go/json/write/writeCommon.go` 121-126 -/
def BytesS.text (x : BytesS) : Bytes := if x.original = [] ∧ x.value ≠ [] then hexEncode x.value else x.original
/-- `bytesFromStringToOJ`, `mandos-go/json/write/writeCommon.go` 128-130 -/
def BytesS.json (x : BytesS) : Option Json := strJ x.text

/-- `OriginalEmpty`, `mandos-go/json/model/valueInit.go` 33-38 and `valueCheck.go` 51-56 -/
def originalEmpty : Option Json → Bool
  | some (.str s) => s = []
  | _ => false

/-- `bytesFromTreeToOJ`, `mandos-go/json/write/writeCommon.go` 132-137 -/
def BytesT.json (x : BytesT) : Option Json := if originalEmpty x.original then strJ (hexEncode x.value) else x.original
/-- `checkBytesToOJ`, `mandos-go/json/write/writeCommon.go` 139-144 -/
def ChkBytes.json (x : ChkBytes) : Option Json :=
  if originalEmpty x.original ∧ x.value ≠ [] then strJ (hexEncode x.value) else x.original

/-! ### Tokens: `writeESDT.go`, `writeESDTCheck.go` -/

/-- `esdtTxDataToOJ`, `mandos-go/json/write/writeESDT.go` 8-20 -/
def JTxToken.json (x : JTxToken) : Option Json :=
  done (some [] |> putIf (x.name.original ≠ []) .tokenIdentifier x.name.json
    |> putIf (x.nonce.original ≠ []) .nonce x.nonce.json
    |> putIf (x.value.original ≠ []) .value x.value.json)

/-- `appendESDTInstanceToOJ`, `mandos-go/json/write/writeESDT.go` 71-93 -/
def JInstance.append (x : JInstance) (m : Option Pairs) : Option Pairs :=
  m |> putIf (x.nonce.original ≠ []) .nonce x.nonce.json
    |> putIf (x.balance.original ≠ []) .balance x.balance.json
    |> putIf (x.creator.original ≠ []) .creator x.creator.json
    |> putIf (x.royalties.original ≠ []) .royalties x.royalties.json
    |> putIf (x.hash.original ≠ []) .hash x.hash.json
    |> putIf (x.uri.value ≠ []) .uri x.uri.json
    |> putIf (x.attributes.original ≠ []) .attributes x.attributes.json

/-- `isCompactESDT`, `mandos-go/json/write/writeESDT.go` 95-109: the single instance -/
def JToken.compact? (x : JToken) : Option JInstance :=
  match x.instances with
  | [i] => if i.nonce.original = [] ∧ x.roles = [] ∧ x.frozen.original = [] then some i else none
  | _ => none

/-- the instances of a token, `mandos-go/json/write/writeESDT.go` 37-49 -/
def JToken.putInstances (x : JToken) : Option Pairs :=
  match x.instances with
  | [i] => i.append (some [])
  | l => some [] |> put .instances (listOf (fun i => done (JInstance.append i (some []))) l)

/-- `esdtItemToOJ`, `mandos-go/json/write/writeESDT.go` 30-69 -/
def JToken.json (x : JToken) : Option Json :=
  match x.compact? with
  | some i => i.balance.json
  | none => done (x.putInstances
      |> putIf (x.lastNonce.original ≠ []) .lastNonce x.lastNonce.json
      |> putIf (x.roles ≠ []) .roles (listOf strJ x.roles)
      |> putIf (x.frozen.original ≠ []) .frozen x.frozen.json)

/-- `esdtDataToOJ`, `mandos-go/json/write/writeESDT.go` 22-28 -/
def tokensJson (l : List JToken) : Option Json := done (l.foldl (fun m x => putAt x.name.original x.json m) (some []))

/-- `appendCheckESDTInstanceToOJ`, `mandos-go/json/write/writeESDTCheck.go` 60-82: under `uri` it is the creator that is written -/
def JChkInstance.append (x : JChkInstance) (m : Option Pairs) : Option Pairs :=
  m |> putIf (x.nonce.original ≠ []) .nonce x.nonce.json
    |> putIf (x.balance.original ≠ []) .balance x.balance.json
    |> putIf (!x.creator.unspecified && x.creator.value ≠ []) .creator x.creator.json
    |> putIf (!x.royalties.unspecified && x.royalties.original ≠ []) .royalties x.royalties.json
    |> putIf (!x.hash.unspecified && x.hash.value ≠ []) .hash x.hash.json
    |> putIf (!x.uri.unspecified && x.uri.value ≠ []) .uri x.creator.json
    |> putIf (!x.attributes.unspecified && x.attributes.value ≠ []) .attributes x.attributes.json

/-- `isCompactCheckESDT`, `mandos-go/json/write/writeESDTCheck.go` 84-98: the single instance -/
def JChkToken.compact? (x : JChkToken) : Option JChkInstance :=
  match x.instances with
  | [i] => if i.nonce.original = [] ∧ x.roles = [] ∧ x.frozen.original = [] then some i else none
  | _ => none

/-- the instances of a checked token, `mandos-go/json/write/writeESDTCheck.go` 26-38 -/
def JChkToken.putInstances (x : JChkToken) : Option Pairs :=
  match x.instances with
  | [i] => i.append (some [])
  | l => some [] |> put .instances (listOf (fun i => done (JChkInstance.append i (some []))) l)

/-- `checkESDTItemToOJ`, `mandos-go/json/write/writeESDTCheck.go` 19-58 -/
def JChkToken.json (x : JChkToken) : Option Json :=
  match x.compact? with
  | some i => i.balance.json
  | none => done (x.putInstances
      |> putIf (x.lastNonce.original ≠ []) .lastNonce x.lastNonce.json
      |> putIf (x.roles ≠ []) .roles (listOf strJ x.roles)
      |> putIf (x.frozen.original ≠ []) .frozen x.frozen.json)

/-- `Put` of the key `+`, with an empty string -/
def putPlus (c : Bool) (m : Option Pairs) : Option Pairs := if c then putAt plusText (strJ []) m else m

/-- `checkESDTDataToOJ`, `mandos-go/json/write/writeESDTCheck.go` 8-17 -/
def chkTokensJson (l : List JChkToken) (more : Bool) : Option Json :=
  done (putPlus more (l.foldl (fun m x => putAt x.name.original x.json m) (some [])))

/-! ### Accounts: `writeAccount.go` -/

/-- one account of `AccountsToOJ`, `mandos-go/json/write/writeAccount.go` 12-35 -/
def JAccount.json (x : JAccount) : Option Json :=
  done (some [] |> putIf (x.comment ≠ []) .comment (strJ x.comment)
    |> put .nonce x.nonce.json
    |> put .balance x.balance.json
    |> putIf (x.tokens ≠ []) .esdt (tokensJson x.tokens)
    |> putIf (x.username.value ≠ []) .username x.username.json
    |> put .storage (done (x.storage.foldl (fun m st => putAt st.1.text st.2.json m) (some [])))
    |> put .code x.code.json
    |> putIf (x.owner.value ≠ []) .owner x.owner.json
    |> putIf (x.asyncCallData ≠ []) .asyncCallData (strJ x.asyncCallData))

/-- `AccountsToOJ`, `mandos-go/json/write/writeAccount.go` 9-41 -/
def accountsJson (l : List JAccount) : Option Json := done (l.foldl (fun m x => putAt x.address.text x.json m) (some []))

/-- the tokens of a checked account, `mandos-go/json/write/writeAccount.go` 56-63 -/
def JChkAccount.putTokens (x : JChkAccount) (m : Option Pairs) : Option Pairs :=
  if x.ignoreTokens then put .esdt (strJ starText) m else putIf (x.tokens ≠ []) .esdt (chkTokensJson x.tokens x.moreTokens) m

/-- the storage of a checked account, `mandos-go/json/write/writeAccount.go` 67-78 -/
def JChkAccount.storageJson (x : JChkAccount) : Option Json :=
  if x.ignoreStorage then strJ starText
  else done (putPlus x.moreStorage (x.storage.foldl (fun m st => putAt st.1.text st.2.json m) (some [])))

/-- one account of `checkAccountsToOJ`, `mandos-go/json/write/writeAccount.go` 46-87 -/
def JChkAccount.json (x : JChkAccount) : Option Json :=
  done (some [] |> putIf (x.comment ≠ []) .comment (strJ x.comment)
    |> putIf (!x.nonce.unspecified) .nonce x.nonce.json
    |> putIf (!x.balance.unspecified) .balance x.balance.json
    |> x.putTokens
    |> putIf (!x.username.unspecified) .username x.username.json
    |> put .storage x.storageJson
    |> putIf (!x.code.unspecified) .code x.code.json
    |> putIf (!x.owner.unspecified) .owner x.owner.json
    |> putIf (!x.asyncCallData.unspecified) .asyncCallData x.asyncCallData.json)

/-- `checkAccountsToOJ`, `mandos-go/json/write/writeAccount.go` 43-97 -/
def JChkAccounts.json (x : JChkAccounts) : Option Json :=
  done (putPlus x.more (x.accounts.foldl (fun m a => putAt a.address.text a.json m) (some [])))

/-! ### Transactions: `writeCommon.go`, `writeScenario.go` -/

/-- `transactionToScenarioOJ`, `mandos-go/json/write/writeScenario.go` 94-131 -/
def JTx.json (x : JTx) : Option Json :=
  done (some [] |> putIf x.kind.hasSender .from x.sender.json
    |> putIf x.kind.hasReceiver .to x.to.json
    |> putIf x.kind.hasValue .value x.value.json
    |> putIf x.token.isSome .esdt (x.token.bind JTxToken.json)
    |> putIf x.kind.hasFunction .function (strJ x.function)
    |> putIf (x.kind = .scDeploy) .contractCode x.code.json
    |> putIf (x.kind.hasFunction || x.kind = .scDeploy) .arguments (listOf BytesT.json x.args)
    |> putIf x.kind.hasGas .gasLimit x.gasLimit.json
    |> putIf x.kind.hasGas .gasPrice x.gasPrice.json)

/-- `logToOJ`, `mandos-go/json/write/writeCommon.go` 63-78 -/
def JLog.json (x : JLog) : Option Json :=
  done (some [] |> put .address x.address.json
    |> put .identifier x.identifier.json
    |> put .topics (listOf ChkBytes.json x.topics)
    |> put .data x.data.json)

/-- the logs of a result, `mandos-go/json/write/writeCommon.go` 37-45, with `logsToOJ`, 80-88 -/
def JResult.logsJson (x : JResult) : Option Json :=
  if x.logsStar then strJ starText else if x.logHash ≠ [] then strJ x.logHash else listOf JLog.json x.logs

/-- `resultToOJ`, `mandos-go/json/write/writeCommon.go` 20-55 -/
def JResult.json (x : JResult) : Option Json :=
  done (some [] |> put .out (listOf ChkBytes.json x.out)
    |> putIf (!x.status.unspecified) .status x.status.json
    |> putIf (!x.message.unspecified) .message x.message.json
    |> putIf (!x.logsUnspecified) .logs x.logsJson
    |> putIf (!x.gas.unspecified) .gas x.gas.json
    |> putIf (!x.refund.unspecified) .refund x.refund.json)

/-! ### Steps: `writeScenario.go` -/

/-- one element of `newAddressMocksToOJ`, `mandos-go/json/write/writeScenario.go` 135-141 -/
def JNewAddress.json (x : JNewAddress) : Option Json :=
  done (some [] |> put .creatorAddress x.creator.json
    |> put .creatorNonce x.nonce.json
    |> put .newAddress x.new.json)

/-- `blockInfoToOJ`, `mandos-go/json/write/writeScenario.go` 146-165 -/
def JBlockInfo.json (x : JBlockInfo) : Option Json :=
  done (some [] |> putIf (x.timestamp.original ≠ []) .blockTimestamp x.timestamp.json
    |> putIf (x.nonce.original ≠ []) .blockNonce x.nonce.json
    |> putIf (x.round.original ≠ []) .blockRound x.round.json
    |> putIf (x.epoch.original ≠ []) .blockEpoch x.epoch.json
    |> putIf x.seed.isSome .blockRandomSeed (x.seed.bind BytesT.json))

/-- `StepTypeName` of transaction steps, `mandos-go/json/model/structScenario.go` 126-141 -/
def JKind.word : JKind → Word
  | .scCall => .scCall
  | .scDeploy => .scDeploy
  | .scQuery => .scQuery
  | .transfer => .transfer
  | .validatorReward => .validatorReward

/-- one step of `ScenarioToOrderedJSON`, `mandos-go/json/write/writeScenario.go` 36-85; `checkAccountsToOJ` and `StepTypeName` dereference nil
pointers when accounts or the transaction are missing -/
def JStep.json : JStep → Option Json
  | .external comment path =>
    done (some [] |> put .step (strJ Word.externalSteps.text) |> putIf (comment ≠ []) .comment (strJ comment) |> put .path (strJ path))
  | .setState x =>
    done (some [] |> put .step (strJ Word.setState.text)
      |> putIf (x.comment ≠ []) .comment (strJ x.comment)
      |> putIf (x.accounts ≠ []) .accounts (accountsJson x.accounts)
      |> putIf (x.newAddresses ≠ []) .newAddresses (listOf JNewAddress.json x.newAddresses)
      |> putIf x.previous.isSome .previousBlockInfo (x.previous.bind JBlockInfo.json)
      |> putIf x.current.isSome .currentBlockInfo (x.current.bind JBlockInfo.json)
      |> putIf (x.blockHashes ≠ []) .blockHashes (listOf BytesS.json x.blockHashes))
  | .checkState comment accounts =>
    done (some [] |> put .step (strJ Word.checkState.text) |> putIf (comment ≠ []) .comment (strJ comment)
      |> put .accounts (accounts.bind JChkAccounts.json))
  | .dumpState comment => done (some [] |> put .step (strJ Word.dumpState.text) |> putIf (comment ≠ []) .comment (strJ comment))
  | .tx x => x.tx.bind fun t =>
    done (some [] |> put .step (strJ t.kind.word.text)
      |> putIf (x.id ≠ []) .txId (strJ x.id)
      |> putIf (x.comment ≠ []) .comment (strJ x.comment)
      |> put .tx t.json
      |> putIf (t.kind.isContractTx && x.expect.isSome) .expect (x.expect.bind JResult.json))

/-- `gasScheduleToOJ`, `mandos-go/json/write/writeScenario.go` 167-182 -/
def JGas.word : JGas → Word
  | .default => .default
  | .dummy => .dummy
  | .v1 => .v1
  | .v2 => .v2
  | .v3 => .v3

/-- `ScenarioToOrderedJSON`, `mandos-go/json/write/writeScenario.go` 15-92 -/
def JScenario.json (x : JScenario) : Option Json :=
  done (some [] |> putIf (x.name ≠ []) .name (strJ x.name)
    |> putIf (x.comment ≠ []) .comment (strJ x.comment)
    |> putIf (!x.checkGas) .checkGas (some (.bool false))
    |> put .gasSchedule (strJ x.gas.word.text)
    |> put .steps (listOf JStep.json x.steps))

/-- `ScenarioToJSONString`, `mandos-go/json/write/writeScenario.go` 9-12; `none` is a panic -/
def scenarioToJsonString (x : JScenario) : Option Bytes := x.json.map fun j => jsonString j ++ [newline]

end Arwen.Mandos
