import Verif.World.Scenario
import Verif.Mandos.ScenarioParse
/-!
Scenario files and directories of them: `mandos-go/controller`, `mandos-go/fileresolver`, and how what was read becomes what is
executed (`arwenmandos/execScenario.go`, `arwenmandos/util.go`). The file system does not change while scenarios run.
-/
namespace Arwen.Mock
open Arwen.Mandos

/-! ### From what was read to what is executed -/

/-- a loop that converts the elements of a list, one of which may not be convertible -/
def eachOf {α β : Type} (f : α → Option β) : List α → Option (List β)
  | [] => some []
  | a :: l => (f a).bind fun b => (eachOf f l).bind fun r => some (b :: r)

/-- the numbers of instances and transfers; a nil number is passed on to libraries that are not modelled -/
def toInstance (x : JInstance) : Option TokenInit := x.balance.value.bind fun b =>
  some { nonce := x.nonce.value, balance := b, creator := x.creator.value, royalties := x.royalties.value, hash := x.hash.value,
         uri := x.uri.value, attributes := x.attributes.value }

/-- the tokens of an account, as `convertAccount`, `arwenmandos/util.go` 48-82, uses them -/
def toTokenSet (x : JToken) : Option TokenSet := (eachOf toInstance x.instances).bind fun l =>
  some { name := x.name.value, instances := l, lastNonce := x.lastNonce.value, roles := x.roles, frozen := x.frozen.value }

/-- an account, as `convertAccount`, `arwenmandos/util.go` 16-46, uses it -/
def toAccount (x : JAccount) : Option AccountInit := x.balance.value.bind fun b => (eachOf toTokenSet x.tokens).bind fun t =>
  some { address := x.address.value, shard := x.shard.value, nonce := x.nonce.value, balance := b, username := x.username.value,
         storage := x.storage.map (fun p => (p.1.value, p.2.value)), code := x.code.value, owner := x.owner.value,
         asyncCallData := x.asyncCallData, tokens := t }

/-- `convertBlockInfo`, `arwenmandos/util.go` 128-147: the seed is copied into 48 bytes -/
def toBlock (x : JBlockInfo) : BlockInfo :=
  { timestamp := x.timestamp.value, nonce := x.nonce.value, round := x.round.value, epoch := x.epoch.value.toUInt32,
    seed := some (match x.seed with
      | none => List.replicate 48 0
      | some s => s.value.take 48 ++ List.replicate (48 - s.value.length) 0) }

/-- `convertNewAddressMocks`, `arwenmandos/util.go` 116-126 -/
def toMock (x : JNewAddress) : AddressMock := { creator := x.creator.value, nonce := x.nonce.value, address := x.new.value }

/-- a `setState` step, as `ExecuteSetStateStep`, `arwenmandos/execScenario.go` 81-114, uses it -/
def toSetState (x : JSetState) : Option SetState := (eachOf toAccount x.accounts).bind fun l =>
  some { accounts := l, previous := x.previous.map toBlock, current := x.current.map toBlock, blockhashes := x.blockHashes.map (·.value),
         addressMocks := x.newAddresses.map toMock }

/-- `JSONCheckBytes` without the text -/
def toCheckBytes (x : ChkBytes) : CheckBytes := { value := x.value, star := x.star, unspecified := x.unspecified }
/-- `JSONCheckUint64` without the text -/
def toCheckU64 (x : ChkU64) : CheckU64 := { value := x.value, star := x.star, unspecified := x.unspecified }
/-- `JSONCheckBigInt` without the text; a nil value is looked at only without a star -/
def toCheckInt (x : ChkInt) : Option CheckInt :=
  match x.value, x.star with
  | some v, s => some { value := v, star := s, unspecified := x.unspecified }
  | none, true => some { star := true, unspecified := x.unspecified }
  | none, false => none

/-- `CheckESDTInstance` without the texts -/
def toCheckInstance (x : JChkInstance) : Option CheckInstance := (toCheckInt x.balance).bind fun b =>
  some { nonce := toCheckU64 x.nonce, balance := b, creator := toCheckBytes x.creator, royalties := toCheckU64 x.royalties,
         hash := toCheckBytes x.hash, uri := toCheckBytes x.uri, attributes := toCheckBytes x.attributes }

/-- `CheckESDTData` without the texts -/
def toCheckToken (x : JChkToken) : Option CheckToken := (eachOf toCheckInstance x.instances).bind fun l =>
  some { name := x.name.value, instances := l, lastNonce := toCheckU64 x.lastNonce, roles := x.roles, frozen := toCheckU64 x.frozen }

/-- `CheckAccount` without the texts -/
def toCheckAccount (x : JChkAccount) : Option CheckAccount := (toCheckInt x.balance).bind fun b => (eachOf toCheckToken x.tokens).bind fun t =>
  some { address := x.address.value, nonce := toCheckU64 x.nonce, balance := b, username := toCheckBytes x.username,
         storage := x.storage.map (fun p => (p.1.value, toCheckBytes p.2)), ignoreStorage := x.ignoreStorage, moreStorage := x.moreStorage,
         code := toCheckBytes x.code, owner := toCheckBytes x.owner, asyncCallData := toCheckBytes x.asyncCallData, tokens := t,
         ignoreTokens := x.ignoreTokens, moreTokens := x.moreTokens }

/-- `CheckAccounts` without the texts -/
def toCheck (x : JChkAccounts) : Option CheckAccounts := (eachOf toCheckAccount x.accounts).bind fun l =>
  some { accounts := l, moreAccounts := x.more }

/-- the kinds of transactions -/
def toKind : JKind → TxKind
  | .scDeploy => .scDeploy
  | .scCall => .scCall
  | .scQuery => .scQuery
  | .transfer => .transfer
  | .validatorReward => .validatorReward

/-- the token that is sent along, `arwenmandos/stepRunTx.go` and `arwenmandos/util.go` 182-195 -/
def toTransfer (x : JTxToken) : Option EsdtTx := x.value.value.bind fun v => some { token := x.name.value, nonce := x.nonce.value, value := v }

/-- the optional token of a transaction -/
def toTransfer? : Option JTxToken → Option (Option EsdtTx)
  | none => some none
  | some t => (toTransfer t).bind fun t => some (some t)

/-- a transaction, as `executeTx`, `arwenmandos/stepRunTx.go`, uses it -/
def toTx (x : JTx) : Option ScTx := x.value.value.bind fun v => (toTransfer? x.token).bind fun t =>
  some { kind := toKind x.kind, value := v, esdt := t, sender := x.sender.value, to := x.to.value, function := x.function, code := x.code.value,
         args := x.args.map (·.value), gasPrice := x.gasPrice.value, gasLimit := x.gasLimit.value }

/-- `LogEntry` without the texts -/
def toCheckLog (x : JLog) : CheckLog :=
  { address := toCheckBytes x.address, identifier := toCheckBytes x.identifier, topics := x.topics.map toCheckBytes, data := toCheckBytes x.data }

/-- an expected result, as `checkTxResults`, `arwenmandos/stepCheckTxResult.go` 13-111, uses it: the hash of the logs is not looked at -/
def toExpect (x : JResult) : Option TxExpect := (toCheckInt x.status).bind fun s => (toCheckInt x.refund).bind fun r =>
  some { out := x.out.map toCheckBytes, status := s, message := toCheckBytes x.message, gas := toCheckU64 x.gas, refund := r,
         logsStar := x.logsStar, logs := x.logs.map toCheckLog }

/-- the optional result of a step -/
def toExpect? : Option JResult → Option (Option TxExpect)
  | none => some none
  | some t => (toExpect t).bind fun t => some (some t)

/-- the names of the gas schedules -/
def toGas : JGas → GasKind
  | .default => .default
  | .dummy => .dummy
  | .v1 => .v1
  | .v2 => .v2
  | .v3 => .v3

/-! ### Files -/

/-- The file system and the libraries for it: `filepath.Abs`, opening and reading a file, `filepath.Join`, `filepath.Dir`,
`filepath.Match` (nothing for a malformed pattern), and the hash of the expressions. -/
structure FileSystem where
  abs : Bytes → Option Bytes
  read : Bytes → Option Bytes
  join : Bytes → Bytes → Bytes
  dir : Bytes → Bytes
  glob : Bytes → Bytes → Option Bool
  keccak : Bytes → Bytes

/-- `DefaultFileResolver`, `mandos-go/fileresolver/fileResolverDefault.go` 11-14 -/
structure Resolver where
  context : Bytes := []
  swaps : AMap Bytes Bytes := AMap.empty

/-- `ResolveAbsolutePath`, `mandos-go/fileresolver/fileResolverDefault.go` 45-54 -/
def Resolver.path (D : FileSystem) (r : Resolver) (value : Bytes) : Bytes :=
  match r.swaps.get? value with
  | some p => p
  | none => D.join (D.dir r.context) value

/-- `ResolveFileValue`, `mandos-go/fileresolver/fileResolverDefault.go` 57-68 -/
def Resolver.value (D : FileSystem) (r : Resolver) (value : Bytes) : Option Bytes :=
  if value.length = 0 then some [] else D.read (r.path D value)

/-- the interpreter that `NewParser`, `mandos-go/json/parse/parser.go`, makes with a resolver -/
def Resolver.interpreter (D : FileSystem) (r : Resolver) : Interpreter := { resolver := some (r.value D), keccak := D.keccak }

/-- the outcome for a file: as for scenarios, or the whole process ends with a panic -/
inductive FileVerdict | passed | failed (f : ScFail) | crashed | unknown
  deriving DecidableEq, Repr

/-- the executor with its `fileResolver`, `arwenmandos/exec.go` 25-32 -/
structure FileRunner (A : Type) where
  run : Runner A
  resolver : Resolver := {}

/-- the same outcome -/
def Verdict.file : Verdict → FileVerdict
  | .passed => .passed
  | .failed f => .failed f
  | .unknown => .unknown

/-- whether `validateNewAddressMocks`, `arwenmandos/util.go` 106-114, panics: an address of fewer than eight bytes comes first among those
that are not those of contracts -/
def mocksCrash (l : List AddressMock) : Bool :=
  match l.find? (fun m => !contractForm m.address) with
  | none => false
  | some m => decide (m.address.length < 8)

section
variable {A : Type} (D : FileSystem) (env : GasSchedule → Env MockWorld A) (L : Lib) (n : Nat) (C : TokenCodec) (load : GasKind → Option GasSchedule)

/-- `ExecuteSetStateStep`, `arwenmandos/execScenario.go` 81-114 -/
def execSetState (s : SetState) (x : Runner A) : FileVerdict × Runner A :=
  match setWorld C s x.st.world with
  | (true, w) => (.passed, { x with st := { x.st with world := w } })
  | (false, w) =>
    (if (setAccounts x.st.world (s.accounts.map (convertAccount C))).1 && mocksCrash s.addressMocks then .crashed else .failed .setState,
     { x with st := { x.st with world := w } })

/-- `ExecuteTxStep`, `arwenmandos/execScenario.go` 117-137 -/
def execTxStep (t : JTxStep) (x : Runner A) : FileVerdict × Runner A :=
  match t.tx with
  | none => (.crashed, x)
  | some tx =>
    match toTx tx, toExpect? t.expect with
    | some tx, some e =>
      let r := runTxStep env L n { id := t.id, tx := tx, expect := e } x
      (r.1.file, r.2)
    | _, _ => (.unknown, x)

/-- `ExecuteCheckStateStep`, `arwenmandos/stepCheckAccounts.go` 18-24 -/
def execCheckState (c : Option JChkAccounts) (x : Runner A) : FileVerdict :=
  match c with
  | none => .crashed
  | some c =>
    match toCheck c with
    | none => .unknown
    | some c => if checkState C c x.st.world then .passed else .failed .checkState

/-- `ExecuteStep` and `ExecuteExternalStep`, `arwenmandos/execScenario.go` 39-78; `exec` runs a file with a resolver -/
def execStep (exec : Bytes → Resolver → FileRunner A → FileVerdict × FileRunner A) (s : JStep) (x : FileRunner A) : FileVerdict × FileRunner A :=
  match s with
  | .external _ path =>
    match exec (x.resolver.path D path) x.resolver x with
    | (.passed, y) => (.passed, { y with resolver := x.resolver })
    | r => r
  | .setState s =>
    match toSetState s with
    | none => (.unknown, x)
    | some s => let r := execSetState C s x.run; (r.1, { x with run := r.2 })
  | .checkState _ c => (execCheckState C c x.run, x)
  | .tx t => let r := execTxStep env L n t x.run; (r.1, { x with run := r.2 })
  | .dumpState _ => (.passed, x)

/-- the loop of `ExecuteScenario`, `arwenmandos/execScenario.go` 26-33 -/
def execSteps (exec : Bytes → Resolver → FileRunner A → FileVerdict × FileRunner A) : List JStep → FileRunner A → FileVerdict × FileRunner A
  | [], x => (.passed, x)
  | s :: rest, x =>
    match execStep D env L n C exec s x with
    | (.passed, x) => execSteps exec rest x
    | r => r

/-- `RunSingleJSONScenario`, `mandos-go/controller/scenarioOne.go` 13-44, with `ExecuteScenario`, `arwenmandos/execScenario.go` 17-36. Files that
include each other may go on for ever: the first argument bounds how deep. -/
def execFile : Nat → Bytes → Resolver → FileRunner A → FileVerdict × FileRunner A
  | 0, _, _, x => (.unknown, x)
  | fuel + 1, path, r, x =>
    match D.abs path with
    | none => (.failed .file, x)
    | some p =>
      match D.read p with
      | none => (.failed .file, x)
      | some content =>
        let r := { r with context := p }
        match parseScenarioFile (r.interpreter D) content with
        | .error .rejected => (.failed .file, x)
        | .error .panic => (.crashed, x)
        | .ok sc =>
          match enterScenario load sc.checkGas (toGas sc.gas) x.run with
          | (false, y) => (.failed .schedule, { run := y, resolver := r })
          | (true, y) => execSteps D env L n C (execFile fuel) sc.steps { run := y, resolver := r }

/-! ### Directories -/

/-- What `filepath.Walk` finds: files (and what cannot be looked at), directories that cannot be listed, and directories with their entries in
lexical order -/
inductive DirTree
  | leaf
  | closed
  | dir (entries : List (Bytes × DirTree))

mutual
/-- the paths that `filepath.Walk` visits, in order -/
def DirTree.walk (path : Bytes) : DirTree → List Bytes
  | .leaf => [path]
  | .closed => [path]
  | .dir entries => path :: walkEntries path entries
/-- the entries of a directory -/
def walkEntries (path : Bytes) : List (Bytes × DirTree) → List Bytes
  | [] => []
  | e :: rest => walkEntry path e ++ walkEntries path rest
/-- one entry -/
def walkEntry (path : Bytes) : Bytes × DirTree → List Bytes
  | (name, t) => t.walk (D.join path name)
end

/-- `isExcluded`, `mandos-go/controller/testDir.go` 12-24; nothing if it panics -/
def isExcluded (general path : Bytes) : List Bytes → Option Bool
  | [] => some false
  | e :: rest =>
    match D.glob (D.join general e) path with
    | none => none
    | some true => some true
    | some false => isExcluded general path rest

/-- the counters -/
structure Tally where
  passed : Nat := 0
  failed : Nat := 0
  skipped : Nat := 0
  deriving DecidableEq, Repr

/-- the outcome for a directory; it is an error if some scenarios failed -/
inductive DirVerdict | done (t : Tally) | crashed | unknown
  deriving DecidableEq, Repr

/-- `Reset`, `arwenmandos/execScenario.go` 12-14 -/
def FileRunner.reset (x : FileRunner A) : FileRunner A := { x with run := x.run.reset }

/-- the function that `RunAllJSONScenariosInDirectory`, `mandos-go/controller/scenarioDir.go` 23-43, calls with every path; it ignores the errors
of `filepath.Walk` -/
def execPaths (fuel : Nat) (general suffix : Bytes) (excluded : List Bytes) (r : Resolver) : List Bytes → Tally → FileRunner A → DirVerdict × FileRunner A
  | [], t, x => (.done t, x)
  | p :: rest, t, x =>
    if suffix.isSuffixOf p then
      match isExcluded D general p excluded with
      | none => (.crashed, x)
      | some true => execPaths fuel general suffix excluded r rest { t with skipped := t.skipped + 1 } x
      | some false =>
        match execFile D env L n C load fuel p r x.reset with
        | (.passed, y) => execPaths fuel general suffix excluded r rest { t with passed := t.passed + 1 } y
        | (.failed _, y) => execPaths fuel general suffix excluded r rest { t with failed := t.failed + 1 } y
        | (.crashed, y) => (.crashed, y)
        | (.unknown, y) => (.unknown, y)
    else execPaths fuel general suffix excluded r rest t x

/-- `RunAllJSONScenariosInDirectory`, `mandos-go/controller/scenarioDir.go` 14-54; the tree is what there is at the path -/
def execDir (fuel : Nat) (general specific suffix : Bytes) (excluded : List Bytes) (r : Resolver) (tree : DirTree) (x : FileRunner A) :
    DirVerdict × FileRunner A :=
  execPaths D env L n C load fuel general suffix excluded r (tree.walk D (D.join general specific)) {} x

/-- whether `RunAllJSONScenariosInDirectory` returns no error -/
def DirVerdict.ok : DirVerdict → Bool
  | .done t => decide (t.failed = 0)
  | _ => false

end
end Arwen.Mock
