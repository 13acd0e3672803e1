import Verif.Mandos.ScenarioModel
/-!
The parser of scenarios: `mandos-go/json/parse`. The texts of errors are left out.
-/
namespace Arwen.Mandos

abbrev Parsed := Except ExprErr

/-- an error is returned -/
def reject {α : Type} : Parsed α := .error .rejected

/-- the loops over the pairs of a map -/
def fields {σ : Type} (f : Bytes → Json → σ → Parsed σ) : List (Bytes × Json) → σ → Parsed σ
  | [], s => .ok s
  | (k, v) :: l, s => (f k v s).bind (fields f l)

/-- the loops over the elements of a list -/
def elements {α : Type} (f : Json → Parsed α) : List Json → Parsed (List α)
  | [] => .ok []
  | j :: l => (f j).bind fun a => (elements f l).map (a :: ·)

/-- the loops over the pairs of a map whose keys are data -/
def entries {α : Type} (f : Bytes → Json → Parsed α) : List (Bytes × Json) → Parsed (List α)
  | [] => .ok []
  | (k, v) :: l => (f k v).bind fun a => (entries f l).map (a :: ·)

/-- the type assertions to maps -/
def asMap : Json → Parsed (List (Bytes × Json))
  | .map l => .ok l
  | _ => reject

/-- the type assertions to lists -/
def asList : Json → Parsed (List Json)
  | .list l => .ok l
  | _ => reject

variable (I : Interpreter)

/-! ### Values: `parseValue.go` -/

/-- `parseString`, `mandos-go/json/parse/parseValue.go` 136-142 -/
def parseStr : Json → Parsed Bytes
  | .str s => .ok s
  | _ => reject

/-- `IsStar`, `mandos-go/json/parse/parseValue.go` 145-151 -/
def isStar : Json → Bool
  | .str s => s = starText
  | _ => false

/-- `processBigInt` and `parseBigInt`, `mandos-go/json/parse/parseValue.go` 39-65 -/
def parseBig (signed : Bool) (j : Json) : Parsed BigI :=
  (parseStr j).bind fun s => (interpretString I s).map fun b =>
    { value := some (if signed then twosFromBytes b else bytesToNat b), original := s }

/-- `processUint64`, `mandos-go/json/parse/parseValue.go` 87-100 -/
def parseU64 (j : Json) : Parsed U64 :=
  (parseBig I false j).bind fun b =>
    match b.value with
    | some z => if 0 ≤ z ∧ z < 2 ^ 64 then .ok { value := UInt64.ofNat z.toNat, original := b.original } else reject
    | none => reject

/-- `processCheckBigInt`, `mandos-go/json/parse/parseValue.go` 19-37 -/
def parseChkInt (signed : Bool) (j : Json) : Parsed ChkInt :=
  if isStar j then .ok { star := true, original := starText }
  else (parseBig I signed j).map fun b => { value := b.value, original := b.original }

/-- `processCheckUint64`, `mandos-go/json/parse/parseValue.go` 67-85 -/
def parseChkU64 (j : Json) : Parsed ChkU64 :=
  if isStar j then .ok { star := true, original := starText }
  else (parseU64 I j).map fun b => { value := b.value, original := b.original }

/-- `processStringAsByteArray`, `mandos-go/json/parse/parseValue.go` 119-126 -/
def parseBytesS (j : Json) : Parsed BytesS :=
  (parseStr j).bind fun s => (interpretString I s).map fun b => { value := b, original := s }

/-- `processSubTreeAsByteArray`, `mandos-go/json/parse/parseValue.go` 128-134 -/
def parseBytesT (j : Json) : Parsed BytesT := (interpretTree I j).map fun b => { value := b, original := some j }

/-- `parseCheckBytes`, `mandos-go/json/parse/parseValue.go` 102-117 -/
def parseChkBytes (j : Json) : Parsed ChkBytes :=
  if isStar j then .ok .any
  else (parseBytesT I j).map fun b => { value := b.value, original := b.original }

/-- `parseAccountAddress`, `mandos-go/json/parse/parseAccounts.go` 11-20 -/
def parseAddress (s : Bytes) : Parsed BytesS :=
  if s = [] then reject
  else (interpretString I s).bind fun b => if b.length = 32 then .ok { value := b, original := s } else reject

/-- an address in a JSON string, `mandos-go/json/parse/parseTx.go` 36-44 and `parseNewAddresses.go` 27-34 -/
def parseAddressJson (j : Json) : Parsed BytesS := (parseStr j).bind (parseAddress I)

/-- `processStringList`, `mandos-go/json/parse/parseList.go` 10-24 -/
def parseStrings (j : Json) : Parsed (List Bytes) := (asList j).bind (elements parseStr)
/-- `parseByteArrayList`, `mandos-go/json/parse/parseList.go` 26-40 -/
def parseBytesSs (j : Json) : Parsed (List BytesS) := (asList j).bind (elements (parseBytesS I))
/-- `parseSubTreeList`, `mandos-go/json/parse/parseList.go` 42-56 -/
def parseBytesTs (j : Json) : Parsed (List BytesT) := (asList j).bind (elements (parseBytesT I))
/-- `parseCheckBytesList`, `mandos-go/json/parse/parseList.go` 58-72 -/
def parseChkBytess (j : Json) : Parsed (List ChkBytes) := (asList j).bind (elements (parseChkBytes I))

/-! ### Tokens: `parseESDT.go`, `parseESDTCheck.go`, `parseESDTTx.go` -/

/-- `tryProcessESDTInstanceField`, `mandos-go/json/parse/parseESDT.go` 97-139; `none` means that it is no such field -/
def instanceField (k : Bytes) (v : Json) (s : JInstance) : Parsed (Option JInstance) :=
  match Word.of? k with
  | some .nonce => (parseU64 I v).map fun x => some { s with nonce := x }
  | some .balance => (parseBig I false v).map fun x => some { s with balance := x }
  | some .creator => (parseBytesS I v).bind fun x => if x.value.length = 32 then .ok (some { s with creator := x }) else reject
  | some .royalties => (parseU64 I v).bind fun x => if x.value ≤ 10000 then .ok (some { s with royalties := x }) else reject
  | some .hash => (parseBytesS I v).map fun x => some { s with hash := x }
  | some .uri => (parseBytesT I v).map fun x => some { s with uri := x }
  | some .attributes => (parseBytesS I v).map fun x => some { s with attributes := x }
  | _ => .ok none

/-- one element of `processESDTInstances`, `mandos-go/json/parse/parseESDT.go` 148-165 -/
def parseInstance (j : Json) : Parsed JInstance :=
  (asMap j).bind fun l => fields (fun k v s => (instanceField I k v s).bind fun r =>
    match r with
    | some s => .ok s
    | none => reject) l {}

/-- what the loop of `processESDTDataMap` collects, `mandos-go/json/parse/parseESDT.go` 45-51 -/
structure TokenParts where
  first : JInstance := {}
  loaded : Bool := false
  explicit : List JInstance := []
  lastNonce : U64 := {}
  roles : List Bytes := []
  frozen : U64 := {}

/-- one round of that loop, `mandos-go/json/parse/parseESDT.go` 53-87 -/
def tokenField (k : Bytes) (v : Json) (s : TokenParts) : Parsed TokenParts :=
  (instanceField I k v s.first).bind fun r =>
    match r with
    | some x => .ok { s with first := x, loaded := true }
    | none =>
      match Word.of? k with
      | some .instances => ((asList v).bind (elements (parseInstance I))).map fun x => { s with explicit := x }
      | some .lastNonce => (parseU64 I v).map fun x => { s with lastNonce := x }
      | some .roles => (parseStrings v).map fun x => { s with roles := x }
      | some .frozen => (parseU64 I v).map fun x => { s with frozen := x }
      | _ => reject

/-- `processESDTData` and `processESDTDataMap`, `mandos-go/json/parse/parseESDT.go` 11-95 -/
def parseToken (name : BytesS) (j : Json) : Parsed JToken :=
  match j with
  | .str _ => (parseBig I false j).map fun b => { name := name, instances := [{ balance := b }] }
  | .map l => (fields (tokenField I) l {}).map fun t =>
      { name := name, instances := (if t.loaded then [t.first] else []) ++ t.explicit, lastNonce := t.lastNonce, roles := t.roles,
        frozen := t.frozen }
  | _ => reject

/-- a token of an account, `mandos-go/json/parse/parseAccounts.go` 71-82 -/
def tokenEntry (k : Bytes) (v : Json) : Parsed JToken :=
  (interpretString I k).bind fun b => parseToken I { value := b, original := k } v

/-- `tryProcessCheckESDTInstanceField`, `mandos-go/json/parse/parseESDTCheck.go` 105-150 -/
def chkInstanceField (k : Bytes) (v : Json) (s : JChkInstance) : Parsed (Option JChkInstance) :=
  match Word.of? k with
  | some .nonce => (parseChkU64 I v).map fun x => some { s with nonce := x }
  | some .balance => (parseChkInt I false v).map fun x => some { s with balance := x }
  | some .creator => (parseChkBytes I v).map fun x => some { s with creator := x }
  | some .royalties => (parseChkU64 I v).bind fun x => if x.value ≤ 10000 then .ok (some { s with royalties := x }) else reject
  | some .hash => (parseChkBytes I v).map fun x => some { s with hash := x }
  | some .uri => (parseChkBytes I v).map fun x => some { s with uri := x }
  | some .attributes => (parseChkBytes I v).map fun x => some { s with attributes := x }
  | _ => .ok none

/-- one element of `processCheckESDTInstances`, `mandos-go/json/parse/parseESDTCheck.go` 159-176 -/
def parseChkInstance (j : Json) : Parsed JChkInstance :=
  (asMap j).bind fun l => fields (fun k v s => (chkInstanceField I k v s).bind fun r =>
    match r with
    | some s => .ok s
    | none => reject) l .fresh

/-- what the loop of `processCheckESDTDataMap` collects, `mandos-go/json/parse/parseESDTCheck.go` 45-59 -/
structure ChkTokenParts where
  first : JChkInstance := .fresh
  loaded : Bool := false
  explicit : List JChkInstance := []
  lastNonce : ChkU64 := {}
  roles : List Bytes := []
  frozen : ChkU64 := {}

/-- one round of that loop, `mandos-go/json/parse/parseESDTCheck.go` 61-95 -/
def chkTokenField (k : Bytes) (v : Json) (s : ChkTokenParts) : Parsed ChkTokenParts :=
  (chkInstanceField I k v s.first).bind fun r =>
    match r with
    | some x => .ok { s with first := x, loaded := true }
    | none =>
      match Word.of? k with
      | some .instances => ((asList v).bind (elements (parseChkInstance I))).map fun x => { s with explicit := x }
      | some .lastNonce => (parseChkU64 I v).map fun x => { s with lastNonce := x }
      | some .roles => (parseStrings v).map fun x => { s with roles := x }
      | some .frozen => (parseChkU64 I v).map fun x => { s with frozen := x }
      | _ => reject

/-- `processCheckESDTData` and `processCheckESDTDataMap`, `mandos-go/json/parse/parseESDTCheck.go` 11-103. From a plain balance the other
fields of the instance are fresh ones, not unspecified ones. -/
def parseChkToken (name : BytesS) (j : Json) : Parsed JChkToken :=
  match j with
  | .str _ => (parseChkInt I false j).map fun b => { name := name, instances := [{ balance := b }] }
  | .map l => (fields (chkTokenField I) l {}).map fun t =>
      { name := name, instances := (if t.loaded then [t.first] else []) ++ t.explicit, lastNonce := t.lastNonce, roles := t.roles,
        frozen := t.frozen }
  | _ => reject

/-- `processTxESDT`, `mandos-go/json/parse/parseESDTTx.go` 11-43 -/
def parseTxToken (j : Json) : Parsed JTxToken :=
  (asMap j).bind fun l => fields (fun k v s =>
    match Word.of? k with
    | some .tokenIdentifier => (parseBytesS I v).map fun x => { s with name := x }
    | some .nonce => (parseU64 I v).map fun x => { s with nonce := x }
    | some .value => (parseBig I false v).map fun x => { s with value := x }
    | _ => reject) l ({} : JTxToken)

/-! ### Accounts: `parseAccounts.go`, `parseAccountsCheck.go` -/

/-- an entry of the storage, `mandos-go/json/parse/parseAccounts.go` 93-107 -/
def storageEntry (k : Bytes) (v : Json) : Parsed (BytesS × BytesT) :=
  (interpretString I k).bind fun b => (parseBytesT I v).map fun x => ({ value := b, original := k }, x)

/-- one field of `processAccount`, `mandos-go/json/parse/parseAccounts.go` 44-126; a map has each key once, so the lists are empty
before -/
def accountField (k : Bytes) (v : Json) (s : JAccount) : Parsed JAccount :=
  match Word.of? k with
  | some .comment => (parseStr v).map fun x => { s with comment := x }
  | some .shard => (parseU64 I v).map fun x => { s with shard := x }
  | some .nonce => (parseU64 I v).map fun x => { s with nonce := x }
  | some .balance => (parseBig I false v).map fun x => { s with balance := x }
  | some .esdt => ((asMap v).bind (entries (tokenEntry I))).map fun x => { s with tokens := s.tokens ++ x }
  | some .username => (parseBytesS I v).map fun x => { s with username := x }
  | some .storage => ((asMap v).bind (entries (storageEntry I))).map fun x => { s with storage := s.storage ++ x }
  | some .code => (parseBytesS I v).map fun x => { s with code := x }
  | some .owner => (parseBytesS I v).map fun x => { s with owner := x }
  | some .asyncCallData => (parseStr v).map fun x => { s with asyncCallData := x }
  | _ => reject

/-- `processAccount`, `mandos-go/json/parse/parseAccounts.go` 22-129, with the address, 138-147 -/
def parseAccount (k : Bytes) (j : Json) : Parsed JAccount :=
  (asMap j).bind fun l => (fields (accountField I) l {}).bind fun a => (parseAddress I k).map fun x => { a with address := x }

/-- `processAccountMap`, `mandos-go/json/parse/parseAccounts.go` 131-151 -/
def parseAccounts (j : Json) : Parsed (List JAccount) := (asMap j).bind (entries (parseAccount I))

/-- the loop over maps with a key `+`: the flag and the other entries, `mandos-go/json/parse/parseAccountsCheck.go` 58-73, 87-105, 141-156 -/
def plusEntries {α : Type} (f : Bytes → Json → Parsed α) : List (Bytes × Json) → Bool × List α → Parsed (Bool × List α)
  | [], s => .ok s
  | (k, v) :: l, s => if k = plusText then plusEntries f l (true, s.2) else (f k v).bind fun a => plusEntries f l (s.1, s.2 ++ [a])

/-- a token of a checked account, `mandos-go/json/parse/parseAccountsCheck.go` 62-71 -/
def chkTokenEntry (k : Bytes) (v : Json) : Parsed JChkToken :=
  (interpretString I k).bind fun b => parseChkToken I { value := b, original := k } v

/-- an entry of the checked storage, `mandos-go/json/parse/parseAccountsCheck.go` 91-103 -/
def chkStorageEntry (k : Bytes) (v : Json) : Parsed (BytesS × ChkBytes) :=
  (interpretString I k).bind fun b => (parseChkBytes I v).map fun x => ({ value := b, original := k }, x)

/-- one field of `processCheckAccount`, `mandos-go/json/parse/parseAccountsCheck.go` 34-126 -/
def chkAccountField (k : Bytes) (v : Json) (s : JChkAccount) : Parsed JChkAccount :=
  match Word.of? k with
  | some .comment => (parseStr v).map fun x => { s with comment := x }
  | some .nonce => (parseChkU64 I v).map fun x => { s with nonce := x }
  | some .balance => (parseChkInt I false v).map fun x => { s with balance := x }
  | some .esdt =>
    if isStar v then .ok { s with ignoreTokens := true }
    else (asMap v).bind fun l => (plusEntries (chkTokenEntry I) l (s.moreTokens, s.tokens)).map fun r =>
      { s with ignoreTokens := false, moreTokens := r.1, tokens := r.2 }
  | some .username => (parseChkBytes I v).map fun x => { s with username := x }
  | some .storage =>
    if isStar v then .ok { s with ignoreStorage := true }
    else (asMap v).bind fun l => (plusEntries (chkStorageEntry I) l (s.moreStorage, s.storage)).map fun r =>
      { s with ignoreStorage := false, moreStorage := r.1, storage := r.2 }
  | some .code => (parseChkBytes I v).map fun x => { s with code := x }
  | some .owner => (parseChkBytes I v).map fun x => { s with owner := x }
  | some .asyncCallData => (parseChkBytes I v).map fun x => { s with asyncCallData := x }
  | _ => reject

/-- `processCheckAccount`, `mandos-go/json/parse/parseAccountsCheck.go` 11-129, with the address, 145-153 -/
def parseChkAccount (k : Bytes) (j : Json) : Parsed JChkAccount :=
  (asMap j).bind fun l => (fields (chkAccountField I) l {}).bind fun a => (parseAddress I k).map fun x => { a with address := x }

/-- `processCheckAccountMap`, `mandos-go/json/parse/parseAccountsCheck.go` 131-158 -/
def parseChkAccounts (j : Json) : Parsed JChkAccounts :=
  (asMap j).bind fun l => (plusEntries (parseChkAccount I) l (false, [])).map fun r => { accounts := r.2, more := r.1 }

/-! ### Transactions: `parseTx.go`, `parseTxResult.go`, `parseLogs.go` -/

/-- one field of `processTx`, `mandos-go/json/parse/parseTx.go` 24-120 -/
def txField (k : Bytes) (v : Json) (s : JTx) : Parsed JTx :=
  match Word.of? k with
  | some .nonce => (parseU64 I v).map fun x => { s with nonce := x }
  | some .from => if s.kind.hasSender then (parseAddressJson I v).map fun x => { s with sender := x } else reject
  | some .to => (parseStr v).bind fun t =>
      if s.kind = .scDeploy then (if t = [] then .ok s else reject)
      else (parseAddress I t).map fun x => { s with to := x }
  | some .function => (parseStr v).bind fun x => if s.kind.hasFunction ∨ x = [] then .ok { s with function := x } else reject
  | some .value => if s.kind.hasValue then (parseBig I false v).map fun x => { s with value := x } else reject
  | some .esdt => if s.kind.hasTokens then (parseTxToken I v).map fun x => { s with token := some x } else reject
  | some .arguments => (parseBytesTs I v).bind fun x => if s.kind = .transfer ∧ x.length > 0 then reject else .ok { s with args := x }
  | some .contractCode => (parseBytesS I v).bind fun x =>
      if s.kind ≠ .scDeploy ∧ x.value.length > 0 then reject else .ok { s with code := x }
  | some .gasPrice => if s.kind.hasGas then (parseU64 I v).map fun x => { s with gasPrice := x } else reject
  | some .gasLimit => if s.kind.hasGas then (parseU64 I v).map fun x => { s with gasLimit := x } else reject
  | _ => reject

/-- `processTx`, `mandos-go/json/parse/parseTx.go` 11-123 -/
def parseTx (kind : JKind) (j : Json) : Parsed JTx := (asMap j).bind fun l => fields (txField I) l { kind := kind }

/-- one field of a log entry, `mandos-go/json/parse/parseLogs.go` 24-49 -/
def logField (k : Bytes) (v : Json) (s : JLog) : Parsed JLog :=
  match Word.of? k with
  | some .address => (parseChkBytes I v).map fun x => { s with address := x }
  | some .identifier => (parseChkBytes I v).map fun x => { s with identifier := x }
  | some .topics => (parseChkBytess I v).map fun x => { s with topics := x }
  | some .data => (parseChkBytes I v).map fun x => { s with data := x }
  | _ => reject

/-- one element of `processLogList`, `mandos-go/json/parse/parseLogs.go` 18-51 -/
def parseLog (j : Json) : Parsed JLog := (asMap j).bind fun l => fields (logField I) l {}

/-- one field of `processTxExpectedResult`, `mandos-go/json/parse/parseTxResult.go` 26-71 -/
def resultField (k : Bytes) (v : Json) (s : JResult) : Parsed JResult :=
  match Word.of? k with
  | some .out => (parseChkBytess I v).map fun x => { s with out := x }
  | some .status => (parseChkInt I true v).map fun x => { s with status := x }
  | some .message => (parseChkBytes I v).map fun x => { s with message := x }
  | some .logs =>
    if isStar v then .ok { s with logsUnspecified := false, logsStar := true }
    else match v with
      | .str h => .ok { s with logsUnspecified := false, logsStar := false, logHash := h }
      | v => ((asList v).bind (elements (parseLog I))).map fun x =>
          { s with logsUnspecified := false, logsStar := false, logHash := [], logs := x }
  | some .gas => (parseChkU64 I v).map fun x => { s with gas := x }
  | some .refund => (parseChkInt I false v).map fun x => { s with refund := x }
  | _ => reject

/-- `processTxExpectedResult`, `mandos-go/json/parse/parseTxResult.go` 11-74 -/
def parseResult (j : Json) : Parsed JResult := (asMap j).bind fun l => fields (resultField I) l {}

/-! ### Steps: `parseNewAddresses.go`, `parseBlockInfo.go`, `parseScenario.go` -/

/-- one field of a new address, `mandos-go/json/parse/parseNewAddresses.go` 24-52 -/
def newAddressField (k : Bytes) (v : Json) (s : JNewAddress) : Parsed JNewAddress :=
  match Word.of? k with
  | some .creatorAddress => (parseAddressJson I v).map fun x => { s with creator := x }
  | some .creatorNonce => (parseU64 I v).map fun x => { s with nonce := x }
  | some .newAddress => (parseAddressJson I v).map fun x => { s with new := x }
  | _ => reject

/-- one element of `processNewAddressMocks`, `mandos-go/json/parse/parseNewAddresses.go` 18-54 -/
def parseNewAddress (j : Json) : Parsed JNewAddress := (asMap j).bind fun l => fields (newAddressField I) l {}

/-- one field of `processBlockInfo`, `mandos-go/json/parse/parseBlockInfo.go` 19-53 -/
def blockInfoField (k : Bytes) (v : Json) (s : JBlockInfo) : Parsed JBlockInfo :=
  match Word.of? k with
  | some .blockTimestamp => (parseU64 I v).map fun x => { s with timestamp := x }
  | some .blockNonce => (parseU64 I v).map fun x => { s with nonce := x }
  | some .blockRound => (parseU64 I v).map fun x => { s with round := x }
  | some .blockEpoch => (parseU64 I v).map fun x => { s with epoch := x }
  | some .blockRandomSeed => (parseBytesT I v).bind fun x => if x.value.length = 48 then .ok { s with seed := some x } else reject
  | _ => reject

/-- `processBlockInfo`, `mandos-go/json/parse/parseBlockInfo.go` 11-56 -/
def parseBlockInfo (j : Json) : Parsed JBlockInfo := (asMap j).bind fun l => fields (blockInfoField I) l {}

/-- a field of an `externalSteps` step, `mandos-go/json/parse/parseScenario.go` 133-149: comment and path -/
def externalField (k : Bytes) (v : Json) (s : Bytes × Bytes) : Parsed (Bytes × Bytes) :=
  match Word.of? k with
  | some .step => .ok s
  | some .comment => (parseStr v).map fun x => (x, s.2)
  | some .path => (parseStr v).map fun x => (s.1, x)
  | _ => reject

/-- a field of a `setState` step, `mandos-go/json/parse/parseScenario.go` 153-189 -/
def setStateField (k : Bytes) (v : Json) (s : JSetState) : Parsed JSetState :=
  match Word.of? k with
  | some .step => .ok s
  | some .comment => (parseStr v).map fun x => { s with comment := x }
  | some .accounts => (parseAccounts I v).map fun x => { s with accounts := x }
  | some .newAddresses => ((asList v).bind (elements (parseNewAddress I))).map fun x => { s with newAddresses := x }
  | some .previousBlockInfo => (parseBlockInfo I v).map fun x => { s with previous := some x }
  | some .currentBlockInfo => (parseBlockInfo I v).map fun x => { s with current := some x }
  | some .blockHashes => (parseBytesSs I v).map fun x => { s with blockHashes := x }
  | _ => reject

/-- a field of a `checkState` step, `mandos-go/json/parse/parseScenario.go` 193-209 -/
def checkStateField (k : Bytes) (v : Json) (s : Bytes × Option JChkAccounts) : Parsed (Bytes × Option JChkAccounts) :=
  match Word.of? k with
  | some .step => .ok s
  | some .comment => (parseStr v).map fun x => (x, s.2)
  | some .accounts => (parseChkAccounts I v).map fun x => (s.1, some x)
  | _ => reject

/-- a field of a `dumpState` step, `mandos-go/json/parse/parseScenario.go` 213-224 -/
def dumpStateField (k : Bytes) (v : Json) (s : Bytes) : Parsed Bytes :=
  match Word.of? k with
  | some .step => .ok s
  | some .comment => parseStr v
  | _ => reject

/-- a field of a transaction step, `parseTxStep`, `mandos-go/json/parse/parseScenario.go` 241-275. An `expect` before the `tx` dereferences a
nil pointer. -/
def txStepField (kind : JKind) (k : Bytes) (v : Json) (s : JTxStep) : Parsed JTxStep :=
  match Word.of? k with
  | some .step => .ok s
  | some .txId => (parseStr v).map fun x => { s with id := x }
  | some .comment => (parseStr v).map fun x => { s with comment := x }
  | some .tx => (parseTx I kind v).map fun x => { s with tx := some x }
  | some .expect =>
    match s.tx with
    | none => .error .panic
    | some t => if t.kind.isContractTx then (parseResult I v).map fun x => { s with expect := some x } else reject
  | _ => reject

/-- the type of a step, `mandos-go/json/parse/parseScenario.go` 117-126; the empty text if there is none -/
def stepType : List (Bytes × Json) → Bytes → Parsed Bytes
  | [], s => .ok s
  | (k, v) :: l, s => if k = Word.step.text then (parseStr v).bind (stepType l) else stepType l s

/-- the steps by the types, `mandos-go/json/parse/parseScenario.go` 128-238 -/
def parseStepOf (type : Bytes) (l : List (Bytes × Json)) : Parsed JStep :=
  match Word.of? type with
  | some .externalSteps => (fields externalField l ([], [])).map fun x => .external x.1 x.2
  | some .setState => (fields (setStateField I) l {}).map .setState
  | some .checkState => (fields (checkStateField I) l ([], none)).map fun x => .checkState x.1 x.2
  | some .dumpState => (fields dumpStateField l []).map .dumpState
  | some .scCall => (fields (txStepField I .scCall) l {}).map .tx
  | some .scDeploy => (fields (txStepField I .scDeploy) l {}).map .tx
  | some .scQuery => (fields (txStepField I .scQuery) l {}).map .tx
  | some .transfer => (fields (txStepField I .transfer) l {}).map .tx
  | some .validatorReward => (fields (txStepField I .validatorReward) l {}).map .tx
  | _ => reject

/-- `processScenarioStep`, `mandos-go/json/parse/parseScenario.go` 111-239 -/
def parseStep (j : Json) : Parsed JStep := (asMap j).bind fun l => (stepType l []).bind fun t => parseStepOf I t l

/-- `parseGasSchedule`, `mandos-go/json/parse/parseScenario.go` 63-82 -/
def parseGas (j : Json) : Parsed JGas :=
  (parseStr j).bind fun s =>
    match Word.of? s with
    | some .default => .ok .default
    | some .dummy => .ok .dummy
    | some .v1 => .ok .v1
    | some .v2 => .ok .v2
    | some .v3 => .ok .v3
    | _ => reject

/-- one field of a scenario, `mandos-go/json/parse/parseScenario.go` 28-59, with `processScenarioStepList`, 84-98 -/
def scenarioField (k : Bytes) (v : Json) (s : JScenario) : Parsed JScenario :=
  match Word.of? k with
  | some .name => (parseStr v).map fun x => { s with name := x }
  | some .comment => (parseStr v).map fun x => { s with comment := x }
  | some .checkGas =>
    match v with
    | .bool b => .ok { s with checkGas := b }
    | _ => reject
  | some .gasSchedule => (parseGas v).map fun x => { s with gas := x }
  | some .steps => ((asList v).bind (elements (parseStep I))).map fun x => { s with steps := x }
  | _ => reject

/-- `ParseScenarioFile` for an object, `mandos-go/json/parse/parseScenario.go` 18-60 -/
def parseScenario (j : Json) : Parsed JScenario := (asMap j).bind fun l => fields (scenarioField I) l {}

/-- `ParseScenarioFile`, `mandos-go/json/parse/parseScenario.go` 12-61; a nil object is not a map -/
def parseScenarioFile (input : Bytes) : Parsed JScenario :=
  match parseOrderedJson input with
  | .ok (some j) => parseScenario I j
  | _ => reject

end Arwen.Mandos
