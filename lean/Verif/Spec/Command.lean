import Verif.World.Command
import Verif.Spec.Files
import Verif.Spec.TestRun
/-!
Specification for C75: what a file of tests in the old format says and stands for, and when the command succeeds.
-/
namespace Arwen.Spec
open Arwen.Mandos Arwen.Mock

/-! ### What a file of tests says -/

section
variable (I : Interpreter)

/-- the header of a block -/
structure SaysHeader (l : List (Bytes × Json)) (x : JHeader) : Prop where
  keys : OnlyKeys l [.gasLimit, .number, .difficulty, .timestamp, .coinbase]
  gasLimit : AtKey l .gasLimit (IsAmount I) {} x.gasLimit
  number : AtKey l .number (IsAmount I) {} x.number
  difficulty : AtKey l .difficulty (IsAmount I) {} x.difficulty
  timestamp : AtKey l .timestamp (IsU64 I) {} x.timestamp
  beneficiary : AtKey l .coinbase (IsAmount I) {} x.beneficiary

/-- the transaction deploys a contract: its receiver is given, and is empty -/
def NoReceiver (l : List (Bytes × Json)) : Prop := valueAt l Word.to.text = some (.str [])

/-- a transaction of a test: a deployment, or else a call -/
def IsTestTx (j : Json) (x : JTx) : Prop :=
  ∃ l, j = .map l ∧ ((NoReceiver l ∧ SaysTx I .scDeploy l x) ∨ (¬ NoReceiver l ∧ SaysTx I .scCall l x))

/-- a block: there is one result for each transaction -/
structure SaysBlock (l : List (Bytes × Json)) (x : JBlock) : Prop where
  keys : OnlyKeys l [.results, .transactions, .blockHeader]
  results : AtKey l .results (IsList fun j y => ∃ l, j = .map l ∧ SaysResult I l y) [] x.results
  txs : AtKey l .transactions (IsList (IsTestTx I)) [] x.txs
  header : AtKey l .blockHeader (fun j y => ∃ l h, j = .map l ∧ SaysHeader I l h ∧ y = some h) none x.header
  both : x.results.length = x.txs.length

/-- a test -/
structure SaysTest (k : Bytes) (l : List (Bytes × Json)) (x : JTest) : Prop where
  keys : OnlyKeys l [.checkGas, .pre, .blocks, .network, .blockHashes, .postState]
  name : x.name = k
  checkGas : AtKey l .checkGas (fun j b => j = .bool b) true x.checkGas
  pre : AtKey l .pre (IsAccounts I) [] x.pre
  blocks : AtKey l .blocks (IsList fun j y => ∃ l, j = .map l ∧ SaysBlock I l y) [] x.blocks
  network : AtKey l .network SaysText [] x.network
  blockHashes : AtKey l .blockHashes (IsList (SaysBytes I)) [] x.blockHashes
  post : AtKey l .postState (fun j y => ∃ c, IsChkAccounts I j c ∧ y = some c) none x.post

/-- a file of tests: an object with a test for each key -/
def SaysTests : Json → List JTest → Prop := IsTable fun k j x => ∃ l, j = .map l ∧ SaysTest I k l x

end

/-! ### What it stands for -/

/-- a block; the header plays no role -/
structure TestBlockAs (x : JBlock) (y : TestBlock) : Prop where
  txs : Each TxAs x.txs y.txs
  results : Each ExpectAs x.results y.results

/-- a test; its name and network play no role -/
structure TestAs (x : JTest) (y : Test) : Prop where
  checkGas : y.checkGas = x.checkGas
  pre : Each AccountInitAs x.pre y.pre
  blocks : Each TestBlockAs x.blocks y.blocks
  blockhashes : Each (fun a b => b = a.value) x.blockHashes y.blockhashes
  post : Both ChkAccountsAs x.post y.post

/-- the file at the path can be read, and stands for these tests -/
def TestFileIs (D : FileSystem) (swaps : AMap Bytes Bytes) (path : Bytes) (l : List Test) : Prop :=
  ∃ file content j x, D.abs path = some file ∧ D.read file = some content ∧ parseOrderedJson content = .ok (some j) ∧
    SaysTests (within D swaps file) j x ∧ Each TestAs x l

/-- all the tests in the files at these paths, in turn -/
inductive TestsOf (D : FileSystem) (swaps : AMap Bytes Bytes) (general suffix : Bytes) (excluded : List Bytes) : List Bytes → List Test → Prop
  | done : TestsOf D swaps general suffix excluded [] []
  | other {p : Bytes} {rest : List Bytes} {l : List Test} : ¬ IsScenarioPath D general suffix excluded p →
      TestsOf D swaps general suffix excluded rest l → TestsOf D swaps general suffix excluded (p :: rest) l
  | next {p : Bytes} {rest : List Bytes} {l l' : List Test} : IsScenarioPath D general suffix excluded p → TestFileIs D swaps p l →
      TestsOf D swaps general suffix excluded rest l' → TestsOf D swaps general suffix excluded (p :: rest) (l ++ l')

/-! ### The command -/

/-- the argument names what is at the path: the path is the argument itself, or the argument below the working directory if there is nothing else -/
def ArgumentIs (D : FileSystem) (m : Machine) (cwd arg path : Bytes) (what : Stat) : Prop :=
  (path = arg ∨ m.stat arg = .missing ∧ path = D.join cwd arg) ∧ m.stat path = what ∧ (what = .file ∨ what = .dir)

/-- a name of a scenario file -/
def EndsScen (path : Bytes) : Prop := ∃ start, path = start ++ scenSuffix

/-- What the command is expected to do with what is at a path: the scenarios of a directory pass in turn, or the scenario passes, or the tests do. -/
def Fulfilled {A : Type} (D : FileSystem) (env : GasSchedule → Env MockWorld A) (L : Lib) (n : Nat) (C : TokenCodec) (load : GasKind → Option GasSchedule)
    (m : Machine) (x : Runner A) (path : Bytes) : Stat → Prop
  | .dir => ∃ y, InTurn D AMap.empty path scenSuffix [] env L n C load ((m.tree (D.join path [])).walk D (D.join path [])) x y
  | .file => (EndsScen path ∧ ∃ sc y, FileIs D AMap.empty path sc ∧ runScenario env L n C load sc x = (.passed, y)) ∨
      (¬ EndsScen path ∧ ∃ l u, TestFileIs D AMap.empty path l ∧ runTestFile env L n C l x.st = (.passed, u))
  | _ => False

end Arwen.Spec
