import Verif.World.Scenario
import Verif.Mandos.Reconstruct
/-
Tests in the old format: `arwenmandos/execTest.go` and the loop of `mandos-go/controller/testOne.go`, and what
`mandos-go/json/model/convertTestToScenario.go` makes of a test.
-/
namespace Arwen.Mock

/-- `Block`, `mandos-go/json/model/structTest.go` 15-19, without the header, which is not used -/
structure TestBlock where
  txs : List ScTx := []
  results : List TxExpect := []
  deriving DecidableEq, Repr

/-- `Test`, `mandos-go/json/model/structTest.go` 4-12; no final state is a nil pointer -/
structure Test where
  checkGas : Bool := true
  pre : List AccountInit := []
  blocks : List TestBlock := []
  blockhashes : List Bytes := []
  post : Option CheckAccounts := none

/-- the outcome of a test; `unknown` means that the model's fuel for nested calls was exhausted -/
inductive TestVerdict | passed | failed (f : ScFail) | panicked | unknown
  deriving DecidableEq, Repr

/-- the accounts of a test, `arwenmandos/execTest.go` 15-22: they are converted as those of `setState` steps but not validated -/
def putAccounts (C : TokenCodec) : List AccountInit → MockWorld → Bool × MockWorld
  | [], w => (true, w)
  | a :: rest, w =>
    if a.address.length ≠ 32 then (false, w)
    else
      let x := convertAccount C a
      putAccounts C rest (w.put x.address { x.acc with storage := x.tokens.foldl (fun m p => m.insert p.1 p.2) x.acc.storage })

section
variable {A : Type} (env : GasSchedule → Env MockWorld A) (L : Lib) (n : Nat) (C : TokenCodec)

/-- the transactions of a block from one on, `arwenmandos/execTest.go` 25-42; the number is the name of the transaction. That there is no result
for a transaction is noticed after its execution. -/
def runTestTxs (checkGas : Bool) : Nat → List ScTx → List TxExpect → St MockWorld A → TestVerdict × St MockWorld A
  | _, [], _, s => (.passed, s)
  | i, t :: ts, rs, s =>
    let r := executeTx (env s.met.sched) L n (Mandos.decimal i) t s
    match r.1 with
    | none => (.unknown, r.2)
    | some (.error e) => (.failed (.tx e), r.2)
    | some (.ok o) =>
      match rs with
      | [] => (.panicked, r.2)
      | c :: rs => if checkResult checkGas c o then runTestTxs checkGas (i + 1) ts rs r.2 else (.failed .result, r.2)

/-- the blocks of a test, `arwenmandos/execTest.go` 24-43; in each the transactions are counted from `first` -/
def runTestBlocks (checkGas : Bool) (first : Nat) : List TestBlock → St MockWorld A → TestVerdict × St MockWorld A
  | [], s => (.passed, s)
  | b :: rest, s =>
    match runTestTxs env L n checkGas first b.txs b.results s with
    | (.passed, s) => runTestBlocks checkGas first rest s
    | r => r

/-- `ExecuteTest`, `arwenmandos/execTest.go` 10-46, with transactions counted from `first` -/
def runTestFrom (first : Nat) (t : Test) (s : St MockWorld A) : TestVerdict × St MockWorld A :=
  match putAccounts C t.pre { s.world.clear with blockhashes := t.blockhashes } with
  | (false, w) => (.failed .setState, { s with world := w })
  | (true, w) =>
    match runTestBlocks env L n t.checkGas first t.blocks { s with world := w } with
    | (.passed, s) =>
      match t.post with
      | none => (.panicked, s)
      | some c => (if checkState C c s.world then .passed else .failed .checkState, s)
    | r => r

/-- `ExecuteTest`, `arwenmandos/execTest.go` 10-46: transactions are counted from zero -/
def runTest (t : Test) (s : St MockWorld A) : TestVerdict × St MockWorld A := runTestFrom env L n C 0 t s

/-- the tests of a file, `RunSingleJSONTest`, `mandos-go/controller/testOne.go` 43-48: stops at the first that fails -/
def runTestFile : List Test → St MockWorld A → TestVerdict × St MockWorld A
  | [], s => (.passed, s)
  | t :: rest, s =>
    match runTest env L n C t s with
    | (.passed, s) => runTestFile rest s
    | r => r

end

/-- the steps for transactions and their results, the first with this number, `mandos-go/json/model/convertTestToScenario.go` 33-39 -/
def testTxSteps : Nat → List ScTx → List TxExpect → List Step
  | _, [], _ => []
  | _, _ :: _, [] => []
  | i, t :: ts, c :: cs => .tx { id := Mandos.decimal i, tx := t, expect := some c } :: testTxSteps (i + 1) ts cs

/-- `ConvertTestToScenario`, `mandos-go/json/model/convertTestToScenario.go` 9-46; nothing if there is no final state, which the scenario would fail on -/
def Test.toScenario (t : Test) : Option Scenario :=
  match t.blocks, t.post with
  | [b], some c =>
    if b.txs.length = b.results.length then
      some { checkGas := t.checkGas, steps := .setState { accounts := t.pre, blockhashes := t.blockhashes } :: testTxSteps 1 b.txs b.results ++ [.checkState c] }
    else none
  | _, _ => none

end Arwen.Mock
