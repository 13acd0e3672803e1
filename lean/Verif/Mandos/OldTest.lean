import Verif.Mandos.ScenarioParse
import Verif.Mandos.ScenarioWrite
import Verif.Mandos.Reconstruct
/-!
The old format of tests: how its files are read (`mandos-go/json/parse/parseTest.go`, `parseBlock.go`), written
(`mandos-go/json/write/writeTest.go`) and converted to scenarios (`mandos-go/json/model/convertTestToScenario.go`).
-/
namespace Arwen.Mandos

/-- `BlockHeader`, `mandos-go/json/model/structTest.go` 22-28; numbers that are not given are nil -/
structure JHeader where
  beneficiary : BigI := {}
  difficulty : BigI := {}
  number : BigI := {}
  gasLimit : BigI := {}
  timestamp : U64 := {}
  deriving DecidableEq

/-- `Block`, `mandos-go/json/model/structTest.go` 15-19 -/
structure JBlock where
  results : List JResult := []
  txs : List JTx := []
  header : Option JHeader := none

/-- `Test`, `mandos-go/json/model/structTest.go` 4-12; the initial value of the flag is that of `processTest`,
`mandos-go/json/parse/parseTest.go` 41 -/
structure JTest where
  name : Bytes := []
  checkGas : Bool := true
  pre : List JAccount := []
  blocks : List JBlock := []
  network : Bytes := []
  blockHashes : List BytesS := []
  post : Option JChkAccounts := none

/-! ### Reading -/

section
variable (I : Interpreter)

/-- one field of `processBlockHeader`, `mandos-go/json/parse/parseBlock.go` 100-129 -/
def headerField (k : Bytes) (v : Json) (s : JHeader) : Parsed JHeader :=
  match Word.of? k with
  | some .gasLimit => (parseBig I false v).map fun x => { s with gasLimit := x }
  | some .number => (parseBig I false v).map fun x => { s with number := x }
  | some .difficulty => (parseBig I false v).map fun x => { s with difficulty := x }
  | some .timestamp => (parseU64 I v).map fun x => { s with timestamp := x }
  | some .coinbase => (parseBig I false v).map fun x => { s with beneficiary := x }
  | _ => reject

/-- `processBlockHeader`, `mandos-go/json/parse/parseBlock.go` 91-133 -/
def parseHeader (j : Json) : Parsed JHeader := (asMap j).bind fun l => fields (headerField I) l {}

/-- the loop of `txIsCreate`, `mandos-go/json/parse/parseBlock.go` 78-88 -/
def createIn : List (Bytes × Json) → Parsed Bool
  | [] => .ok false
  | (k, v) :: l => if k = Word.to.text then (parseStr v).map fun t => decide (t = []) else createIn l

/-- `txIsCreate`, `mandos-go/json/parse/parseBlock.go` 73-89: deployments are the transactions with an empty receiver -/
def isCreate (j : Json) : Parsed Bool := (asMap j).bind createIn

/-- one transaction of a block, `mandos-go/json/parse/parseBlock.go` 38-52 -/
def parseTestTx (j : Json) : Parsed JTx := (isCreate j).bind fun c => parseTx I (if c then .scDeploy else .scCall) j

/-- one field of `processBlock`, `mandos-go/json/parse/parseBlock.go` 18-63; a map has each key once, so the lists are empty before -/
def blockField (k : Bytes) (v : Json) (s : JBlock) : Parsed JBlock :=
  match Word.of? k with
  | some .results => ((asList v).bind (elements (parseResult I))).map fun x => { s with results := x }
  | some .transactions => ((asList v).bind (elements (parseTestTx I))).map fun x => { s with txs := x }
  | some .blockHeader => (parseHeader I v).map fun x => { s with header := some x }
  | _ => reject

/-- `processBlock`, `mandos-go/json/parse/parseBlock.go` 11-70 -/
def parseBlock (j : Json) : Parsed JBlock :=
  (asMap j).bind fun l => (fields (blockField I) l {}).bind fun b => if b.results.length = b.txs.length then .ok b else reject

/-- one field of `processTest`, `mandos-go/json/parse/parseTest.go` 44-88 -/
def testField (k : Bytes) (v : Json) (s : JTest) : Parsed JTest :=
  match Word.of? k with
  | some .checkGas =>
    match v with
    | .bool b => .ok { s with checkGas := b }
    | _ => reject
  | some .pre => (parseAccounts I v).map fun x => { s with pre := x }
  | some .blocks => ((asList v).bind (elements (parseBlock I))).map fun x => { s with blocks := x }
  | some .network => (parseStr v).map fun x => { s with network := x }
  | some .blockHashes => (parseBytesSs I v).map fun x => { s with blockHashes := x }
  | some .postState => (parseChkAccounts I v).map fun x => { s with post := some x }
  | _ => reject

/-- `processTest`, `mandos-go/json/parse/parseTest.go` 36-91, with the name, 26-31 -/
def parseTest (k : Bytes) (j : Json) : Parsed JTest :=
  (asMap j).bind fun l => (fields (testField I) l {}).map fun t => { t with name := k }

/-- the tests of an object, `mandos-go/json/parse/parseTest.go` 19-33 -/
def parseTests (j : Json) : Parsed (List JTest) := (asMap j).bind (entries (parseTest I))

/-- `ParseTestFile`, `mandos-go/json/parse/parseTest.go` 12-34; a nil object is not a map -/
def parseTestFile (input : Bytes) : Parsed (List JTest) :=
  match parseOrderedJson input with
  | .ok (some j) => parseTests I j
  | _ => reject

end

/-! ### Writing -/

/-- `transactionToTestOJ`, `mandos-go/json/write/writeTest.go` 46-68 -/
def JTx.testJson (x : JTx) : Option Json :=
  done (some [] |> put .nonce x.nonce.json
    |> put .function (strJ x.function)
    |> put .gasLimit x.gasLimit.json
    |> put .value x.value.json
    |> put .to x.to.json
    |> put .arguments (listOf BytesT.json x.args)
    |> putIf (x.code.original ≠ []) .contractCode x.code.json
    |> put .gasPrice x.gasPrice.json
    |> put .from x.sender.json)

/-- the header of a block, `mandos-go/json/write/writeTest.go` 87-93 -/
def JHeader.json (x : JHeader) : Option Json :=
  done (some [] |> put .gasLimit x.gasLimit.json
    |> put .number x.number.json
    |> put .difficulty x.difficulty.json
    |> put .timestamp x.timestamp.json
    |> put .coinbase x.beneficiary.json)

/-- `blockToOJ`, `mandos-go/json/write/writeTest.go` 70-96, which dereferences a nil pointer when the header is missing -/
def JBlock.json (x : JBlock) : Option Json :=
  done (some [] |> put .results (listOf JResult.json x.results)
    |> put .transactions (listOf JTx.testJson x.txs)
    |> put .blockHeader (x.header.bind JHeader.json))

/-- `testToOJ`, `mandos-go/json/write/writeTest.go` 24-44; `checkAccountsToOJ` dereferences a nil pointer when the final state is missing -/
def JTest.json (x : JTest) : Option Json :=
  done (some [] |> putIf (!x.checkGas) .checkGas (some (.bool false))
    |> put .pre (accountsJson x.pre)
    |> put .blocks (listOf JBlock.json x.blocks)
    |> put .network (strJ x.network)
    |> put .blockHashes (listOf BytesS.json x.blockHashes)
    |> put .postState (x.post.bind JChkAccounts.json))

/-- `TestToOrderedJSON`, `mandos-go/json/write/writeTest.go` 15-22 -/
def testsJson (l : List JTest) : Option Json := done (l.foldl (fun m x => putAt x.name x.json m) (some []))

/-- `TestToJSONString`, `mandos-go/json/write/writeTest.go` 9-12; `none` is a panic -/
def testsToJsonString (l : List JTest) : Option Bytes := (testsJson l).map fun j => jsonString j ++ [newline]

/-! ### Conversion -/

/-- the steps for the transactions of a block, the first with this number, `mandos-go/json/model/convertTestToScenario.go` 33-39 -/
def numberedSteps : Nat → List JTx → List JResult → List JStep
  | _, [], _ => []
  | _, _ :: _, [] => []
  | n, t :: ts, r :: rs => .tx { id := decimal n, tx := some t, expect := some r } :: numberedSteps (n + 1) ts rs

/-- `ConvertTestToScenario`, `mandos-go/json/model/convertTestToScenario.go` 9-46; `none` is an error. The gas schedule is the default one. -/
def convertTests : List JTest → Option JScenario
  | [t] =>
    match t.blocks with
    | [b] =>
      if b.txs.length = b.results.length then
        some { checkGas := t.checkGas,
               steps := .setState { accounts := t.pre, blockHashes := t.blockHashes } :: numberedSteps 1 b.txs b.results ++ [.checkState [] t.post] }
      else none
    | _ => none
  | _ => none

end Arwen.Mandos
