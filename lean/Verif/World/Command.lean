import Verif.World.Files
import Verif.World.OldTest
import Verif.Mandos.OldTest
/-!
Files and directories of tests in the old format (`mandos-go/controller/testOne.go`, `mandos-go/controller/testDir.go`), and the command that runs what its
argument names (`cmd/test/runner.go`).
-/
namespace Arwen.Mock
open Arwen.Mandos

/-! ### From what was read to what is executed -/

/-- a block, as `ExecuteTest`, `arwenmandos/execTest.go` 24-43, uses it: the header is not looked at -/
def toTestBlock (x : JBlock) : Option TestBlock := (eachOf toTx x.txs).bind fun t => (eachOf toExpect x.results).bind fun r =>
  some { txs := t, results := r }

/-- the optional final state -/
def toCheck? : Option JChkAccounts → Option (Option CheckAccounts)
  | none => some none
  | some c => (toCheck c).bind fun c => some (some c)

/-- a test, as `ExecuteTest`, `arwenmandos/execTest.go` 10-46, uses it: the name and the network are not looked at -/
def toTest (x : JTest) : Option Test := (eachOf toAccount x.pre).bind fun a => (eachOf toTestBlock x.blocks).bind fun b =>
  (toCheck? x.post).bind fun c =>
    some { checkGas := x.checkGas, pre := a, blocks := b, blockhashes := x.blockHashes.map (·.value), post := c }

/-- the same outcome; a panic ends the process -/
def TestVerdict.file : TestVerdict → FileVerdict
  | .passed => .passed
  | .failed f => .failed f
  | .panicked => .crashed
  | .unknown => .unknown

section
variable {A : Type} (D : FileSystem) (env : GasSchedule → Env MockWorld A) (L : Lib) (n : Nat) (C : TokenCodec) (load : GasKind → Option GasSchedule)

/-- the loop of `RunSingleJSONTest`, `mandos-go/controller/testOne.go` 43-48 -/
def execTests : List JTest → Runner A → FileVerdict × Runner A
  | [], x => (.passed, x)
  | t :: rest, x =>
    match toTest t with
    | none => (.unknown, x)
    | some t =>
      match runTest env L n C t x.st with
      | (.passed, s) => execTests rest { x with st := s }
      | (v, s) => (v.file, { x with st := s })

/-- `RunSingleJSONTest`, `mandos-go/controller/testOne.go` 13-51 -/
def execTestFile (path : Bytes) (r : Resolver) (x : Runner A) : FileVerdict × Runner A :=
  match D.abs path with
  | none => (.failed .file, x)
  | some p =>
    match D.read p with
    | none => (.failed .file, x)
    | some content =>
      match parseTestFile ({ r with context := p }.interpreter D) content with
      | .error .rejected => (.failed .file, x)
      | .error .panic => (.crashed, x)
      | .ok l => execTests env L n C l x

/-- the function that `RunAllJSONTestsInDirectory`, `mandos-go/controller/testDir.go` 37-55, calls with every path: nothing is reset between files -/
def execTestPaths (general suffix : Bytes) (excluded : List Bytes) (r : Resolver) : List Bytes → Tally → Runner A → DirVerdict × Runner A
  | [], t, x => (.done t, x)
  | p :: rest, t, x =>
    if suffix.isSuffixOf p then
      match isExcluded D general p excluded with
      | none => (.crashed, x)
      | some true => execTestPaths general suffix excluded r rest { t with skipped := t.skipped + 1 } x
      | some false =>
        match execTestFile D env L n C p r x with
        | (.passed, y) => execTestPaths general suffix excluded r rest { t with passed := t.passed + 1 } y
        | (.failed _, y) => execTestPaths general suffix excluded r rest { t with failed := t.failed + 1 } y
        | (.crashed, y) => (.crashed, y)
        | (.unknown, y) => (.unknown, y)
    else execTestPaths general suffix excluded r rest t x

/-- `RunAllJSONTestsInDirectory`, `mandos-go/controller/testDir.go` 28-66; the tree is what there is at the path -/
def execTestDir (general specific suffix : Bytes) (excluded : List Bytes) (r : Resolver) (tree : DirTree) (x : Runner A) : DirVerdict × Runner A :=
  execTestPaths D env L n C general suffix excluded r (tree.walk D (D.join general specific)) {} x

/-! ### The command -/

/-- what `os.Stat` says, which follows symbolic links: there is nothing, it cannot be said, there is a file, there is a directory -/
inductive Stat | missing | broken | file | dir
  deriving DecidableEq, Repr

/-- What the command gets from the operating system: its arguments, the working directory (nothing if it cannot be found out), `os.Stat`, and what
`filepath.Walk` finds at a path. The latter does not follow symbolic links: they are leaves. -/
structure Machine where
  args : List Bytes
  cwd : Option Bytes
  stat : Bytes → Stat
  tree : Bytes → DirTree

/-- how the process ends; exit codes other than zero are failures -/
inductive Exit | success | failure | panic | unknown
  deriving DecidableEq, Repr

/-- `resolveArgument`, `cmd/test/runner.go` 13-24: the path, and whether it is a directory -/
def resolveArgument (m : Machine) (cwd arg : Bytes) : Option (Bytes × Bool) :=
  match m.stat arg with
  | .file => some (arg, false)
  | .dir => some (arg, true)
  | .broken => none
  | .missing =>
    match m.stat (D.join cwd arg) with
    | .file => some (D.join cwd arg, false)
    | .dir => some (D.join cwd arg, true)
    | _ => none

/-- `.scen.json` -/
def scenSuffix : Bytes := [46, 115, 99, 101, 110, 46, 106, 115, 111, 110]

/-- the end of the process after a file, `cmd/test/runner.go` 75-81 -/
def FileVerdict.exit : FileVerdict → Exit
  | .passed => .success
  | .failed _ => .failure
  | .crashed => .panic
  | .unknown => .unknown

/-- the end of the process after a directory, `mandos-go/controller/scenarioDir.go` 48-53 and `cmd/test/runner.go` 75-81 -/
def DirVerdict.exit : DirVerdict → Exit
  | .done t => if t.failed = 0 then .success else .failure
  | .crashed => .panic
  | .unknown => .unknown

/-- `main`, `cmd/test/runner.go` 26-82; `make` is `NewArwenTestExecutor`, `arwenmandos/exec.go` 38-70. The fuel bounds how deep files include each other. -/
def runCommand (fuel : Nat) (m : Machine) (make : Option (Runner A)) : Exit :=
  match m.cwd with
  | none => .failure
  | some cwd =>
    match m.args with
    | [arg] =>
      match resolveArgument D m cwd arg with
      | none => .failure
      | some (path, isDir) =>
        match make with
        | none => .panic
        | some x =>
          if isDir then (execDir D env L n C load fuel path [] scenSuffix [] {} (m.tree (D.join path [])) { run := x }).1.exit
          else if scenSuffix.isSuffixOf path then (execFile D env L n C load fuel path {} { run := x }).1.exit
          else (execTestFile D env L n C path {} x).1.exit
    | _ => .panic

end
end Arwen.Mock
