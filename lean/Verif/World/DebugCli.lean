import Verif.World.Debug
/-
The commands of the debugger (`cmd/arwendebug`). The library `urfave/cli` (v1.22.5, external) splits the command line into the name of a
command and the flags given, each with its value, in the order given; arguments that are not flags are ignored. Asking for help, a missing
command and a command that does not exist are answered by the library.
-/
namespace Arwen.Debug
open Arwen.Mock

/-- the fields of `cliArguments` that are texts -/
inductive StrField
  | serverAddress | database | world | outcome | impersonated | contractAddress | function | code | codePath | codeMetadata | value
  | accountAddress | accountBalance
  deriving DecidableEq, Repr

/-- the fields of `cliArguments` that are numbers -/
inductive NumField | gasLimit | gasPrice | accountNonce
  deriving DecidableEq, Repr

/-- `cliArguments`, `cmd/arwendebug/cliArguments.go` 8-31; `Action`, which nothing sets or reads, is left out -/
structure CliArgs where
  serverAddress : Bytes := []
  database : Bytes := []
  world : Bytes := []
  outcome : Bytes := []
  impersonated : Bytes := []
  contractAddress : Bytes := []
  function : Bytes := []
  arguments : List Bytes := []
  code : Bytes := []
  codePath : Bytes := []
  codeMetadata : Bytes := []
  value : Bytes := []
  gasLimit : UInt64 := 0
  gasPrice : UInt64 := 0
  accountAddress : Bytes := []
  accountBalance : Bytes := []
  accountNonce : UInt64 := 0
  deriving DecidableEq, Repr

/-- writing through the `Destination` of a `StringFlag`, `cmd/arwendebug/cli.go` 17-115 -/
def CliArgs.setStr (a : CliArgs) (v : Bytes) : StrField → CliArgs
  | .serverAddress => { a with serverAddress := v }
  | .database => { a with database := v }
  | .world => { a with world := v }
  | .outcome => { a with outcome := v }
  | .impersonated => { a with impersonated := v }
  | .contractAddress => { a with contractAddress := v }
  | .function => { a with function := v }
  | .code => { a with code := v }
  | .codePath => { a with codePath := v }
  | .codeMetadata => { a with codeMetadata := v }
  | .value => { a with value := v }
  | .accountAddress => { a with accountAddress := v }
  | .accountBalance => { a with accountBalance := v }

/-- writing through the `Destination` of a `Uint64Flag`, `cmd/arwendebug/cli.go` 70-78, 110-115 -/
def CliArgs.setNum (a : CliArgs) (v : UInt64) : NumField → CliArgs
  | .gasLimit => { a with gasLimit := v }
  | .gasPrice => { a with gasPrice := v }
  | .accountNonce => { a with accountNonce := v }

/-- the `Destination` of a flag; `arguments` is the `Value` of the only `StringSliceFlag` -/
inductive Dest
  | str (f : StrField)
  | num (f : NumField)
  | arguments
  deriving DecidableEq, Repr

/-- `cli.StringFlag`, `cli.Uint64Flag`, `cli.StringSliceFlag` (external), as far as they are used -/
structure Flag where
  name : String
  required : Bool := false
  default : Bytes := []
  dest : Dest
  deriving DecidableEq, Repr

/-- `:9091`, `cmd/arwendebug/cli.go` 20 -/
def defaultServer : Bytes := [58, 57, 48, 57, 49]

/-! the flags, `cmd/arwendebug/cli.go` 17-115 -/

def flagServerAddress : Flag := { name := "address", default := defaultServer, dest := .str .serverAddress }
def flagDatabase : Flag := { name := "database", dest := .str .database }
def flagWorld : Flag := { name := "world", dest := .str .world }
def flagOutcome : Flag := { name := "outcome", required := true, dest := .str .outcome }
def flagContract : Flag := { name := "contract", required := true, dest := .str .contractAddress }
def flagImpersonated : Flag := { name := "impersonated", required := true, dest := .str .impersonated }
def flagFunction : Flag := { name := "function", required := true, dest := .str .function }
def flagArguments : Flag := { name := "arguments", dest := .arguments }
def flagValue : Flag := { name := "value", dest := .str .value }
def flagGasLimit : Flag := { name := "gas-limit", dest := .num .gasLimit }
def flagGasPrice : Flag := { name := "gas-price", dest := .num .gasPrice }
def flagCode : Flag := { name := "code", dest := .str .code }
def flagCodePath : Flag := { name := "code-path", dest := .str .codePath }
def flagCodeMetadata : Flag := { name := "code-metadata", dest := .str .codeMetadata }
def flagAccountAddress : Flag := { name := "address", required := true, dest := .str .accountAddress }
def flagAccountBalance : Flag := { name := "balance", required := true, dest := .str .accountBalance }
def flagAccountNonce : Flag := { name := "nonce", required := true, dest := .num .accountNonce }

/-- the commands, `cmd/arwendebug/cli.go` 126-235 -/
inductive Command | server | deploy | upgrade | run | query | createAccount
  deriving DecidableEq, Repr

/-- the command with this `Name`, `cmd/arwendebug/cli.go` 128, 139, 163, 188, 211, 231 -/
def commandNamed : String → Option Command
  | "server" => some .server
  | "deploy" => some .deploy
  | "upgrade" => some .upgrade
  | "run" => some .run
  | "query" => some .query
  | "create-account" => some .createAccount
  | _ => none

/-- the `Flags` of a command, `cmd/arwendebug/cli.go` 126-235 -/
def Command.flags : Command → List Flag
  | .server => [flagServerAddress]
  | .deploy => [flagOutcome, flagWorld, flagDatabase, flagImpersonated, flagCode, flagCodePath, flagCodeMetadata, flagArguments, flagValue,
      flagGasLimit, flagGasPrice]
  | .upgrade => [flagOutcome, flagWorld, flagDatabase, flagContract, flagImpersonated, flagCode, flagCodePath, flagCodeMetadata, flagArguments,
      flagValue, flagGasLimit, flagGasPrice]
  | .run => [flagOutcome, flagWorld, flagDatabase, flagContract, flagImpersonated, flagFunction, flagArguments, flagValue, flagGasLimit,
      flagGasPrice]
  | .query => [flagOutcome, flagWorld, flagDatabase, flagContract, flagImpersonated, flagFunction, flagArguments, flagGasLimit]
  | .createAccount => [flagOutcome, flagWorld, flagDatabase, flagAccountAddress, flagAccountBalance, flagAccountNonce]

/-- a flag that is given, and its value -/
abbrev GivenFlag := String × Bytes

/-- `Apply` of a flag when its command is chosen (`urfave/cli`, external): the default is written to the destination -/
def applyFlag (a : CliArgs) (f : Flag) : CliArgs :=
  match f.dest with
  | .str s => a.setStr f.default s
  | .num s => a.setNum 0 s
  | .arguments => a

section
variable (parseUint : Bytes → Option UInt64)

/-- `Set` of a flag that is given (package `flag` and `urfave/cli`, external): a text is written to the destination, a number if it can be
read (`strconv.ParseUint`, a parameter), and an argument is appended -/
def setFlag (f : Flag) (v : Bytes) (a : CliArgs) : Option CliArgs :=
  match f.dest with
  | .str s => some (a.setStr v s)
  | .num s => (parseUint v).map fun k => a.setNum k s
  | .arguments => some { a with arguments := a.arguments ++ [v] }

/-- `Parse` of a set of flags (package `flag`, external): the flags given are set one after the other; one that the command does not have
is an error -/
def parseGiven (flags : List Flag) : List GivenFlag → CliArgs → Option CliArgs
  | [], a => some a
  | (name, v) :: rest, a =>
    match flags.find? fun f => f.name == name with
    | none => none
    | some f =>
      match setFlag parseUint f v a with
      | none => none
      | some a => parseGiven flags rest a

/-- what the flags given to a command leave in `cliArguments` (`urfave/cli`, external: `Command.Run` with `checkRequiredFlags`); `none` for
an error -/
def parseCommand (c : Command) (l : List GivenFlag) : Option CliArgs :=
  match parseGiven parseUint c.flags l (c.flags.foldl applyFlag {}) with
  | none => none
  | some a => if c.flags.all fun f => !f.required || l.any fun x => x.1 == f.name then some a else none

end

/-- `populateContractRequestBase` and the arguments, `cmd/arwendebug/cliArguments.go` 45, 48-55, 85 -/
def CliArgs.common (a : CliArgs) : Common :=
  { impersonatedHex := a.impersonated, value := a.value, gasPrice := a.gasPrice, gasLimit := a.gasLimit, argumentsHex := a.arguments }

/-- the code in `populateDeployRequest`, `cmd/arwendebug/cliArguments.go` 42-44 -/
def CliArgs.codeOf (a : CliArgs) : CodeOf := { hex := a.code, path := a.codePath, metadata := a.codeMetadata }

/-- `populateRequestBase`, `cmd/arwendebug/cliArguments.go` 57-61 -/
def CliArgs.withBase (a : CliArgs) (act : Act) : Req := { database := a.database, world := a.world, outcome := a.outcome, act := act }

/-- what a command does with `cliArguments` -/
inductive Task
  | serve (address : Bytes)
  | request (r : Req)

/-- the `Action` of a command, `cmd/arwendebug/cli.go` 126-235, with `toDeployRequest`, `toUpgradeRequest`, `toRunRequest`,
`toQueryRequest`, `toCreateAccountRequest`, `cmd/arwendebug/cliArguments.go` 33-106 -/
def CliArgs.task (a : CliArgs) : Command → Task
  | .server => .serve a.serverAddress
  | .deploy => .request (a.withBase (.deploy a.common a.codeOf))
  | .upgrade => .request (a.withBase (.upgrade a.common a.codeOf a.contractAddress))
  | .run => .request (a.withBase (.run a.common a.contractAddress a.function))
  | .query => .request (a.withBase (.query a.common a.contractAddress a.function))
  | .createAccount => .request (a.withBase (.createAccount a.accountAddress a.accountBalance a.accountNonce))

/-- how the program ends -/
inductive ProgramEnd
  /-- `os.Exit(code)`, `cmd/arwendebug/main.go` 28-35 -/
  | exit (code : Nat)
  /-- a panic -/
  | panic
  /-- an end from outside -/
  | killed
  /-- it goes on as a server, `arwendebug/server.go` 25-37 -/
  | serves (address : Bytes)
  /-- answered by the library -/
  | library

/-- the error of a request, if any, made an exit code: `cmd/arwendebug/main.go` 12-17, 28-35 -/
def endingOf : Result → ProgramEnd
  | .refused => .exit 1
  | .unreadable => .exit 1
  | .crashed => .panic
  | .stopped => .killed
  | .done _ => .exit 0

section
variable {A : Type} (E : Env MockWorld A) (L : Lib) (n : Nat) (boot : MockWorld → St MockWorld A) (readCode : Bytes → Option Bytes)
variable (parseUint : Bytes → Option UInt64)

/-- the program, `cmd/arwendebug/main.go` 19-36: the command and the flags given, where it may be ended from outside, and the files; how
it ends, and the files afterwards. `none`: the model's fuel for nested calls was exhausted. -/
def debugMain (name : String) (l : List GivenFlag) (stop : Option Stop) (d : Disk) : Option (ProgramEnd × Disk) :=
  match commandNamed name with
  | none => some (.library, d)
  | some c =>
    match parseCommand parseUint c l with
    | none => some (.exit 1, d)
    | some a =>
      match a.task c with
      | .serve address => some (.serves address, d)
      | .request r => (handle E L n boot readCode r stop d).map fun x => (endingOf x.1, x.2)

/-- commands one after the other -/
def commandsRun : List (String × List GivenFlag × Option Stop) → Disk → Option (List ProgramEnd × Disk)
  | [], d => some ([], d)
  | (name, l, stop) :: rest, d =>
    match debugMain E L n boot readCode parseUint name l stop d with
    | none => none
    | some (e, d) => (commandsRun rest d).map fun x => (e :: x.1, x.2)

end

end Arwen.Debug
