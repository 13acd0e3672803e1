import Verif.World.DebugCli
/-
What the flags given to a command of the debugger say.
-/
namespace Arwen.Spec
open Arwen.Mock Arwen.Debug

/-- the flag is given -/
def IsGiven (l : List GivenFlag) (name : String) : Prop := ∃ v, (name, v) ∈ l

/-- this is the value of the flag that was given last -/
def LastGiven (l : List GivenFlag) (name : String) (v : Bytes) : Prop :=
  ∃ before after, l = before ++ (name, v) :: after ∧ ¬ IsGiven after name

/-- the flag says this text: it was given last, or the flag was not given and this is the default -/
def FlagText (l : List GivenFlag) (name : String) (default v : Bytes) : Prop :=
  LastGiven l name v ∨ (¬ IsGiven l name ∧ v = default)

/-- the flag says this number: the last text given for it reads so, or the flag was not given and it is 0 -/
def FlagNumber (parseUint : Bytes → Option UInt64) (l : List GivenFlag) (name : String) (k : UInt64) : Prop :=
  (∃ v, LastGiven l name v ∧ parseUint v = some k) ∨ (¬ IsGiven l name ∧ k = 0)

/-- the flags that each command takes and must be given -/
def mustHave : Command → List String
  | .server => []
  | .deploy => ["outcome", "impersonated"]
  | .upgrade => ["outcome", "impersonated", "contract"]
  | .run => ["outcome", "impersonated", "contract", "function"]
  | .query => ["outcome", "impersonated", "contract", "function"]
  | .createAccount => ["outcome", "address", "balance", "nonce"]

/-- the flags that each command takes and need not be given -/
def mayHave : Command → List String
  | .server => ["address"]
  | .deploy => ["world", "database", "code", "code-path", "code-metadata", "arguments", "value", "gas-limit", "gas-price"]
  | .upgrade => ["world", "database", "code", "code-path", "code-metadata", "arguments", "value", "gas-limit", "gas-price"]
  | .run => ["world", "database", "arguments", "value", "gas-limit", "gas-price"]
  | .query => ["world", "database", "arguments", "gas-limit"]
  | .createAccount => ["world", "database"]

/-- the flags whose values are numbers -/
def numbers : List String := ["gas-limit", "gas-price", "nonce"]

/-- the flags given are flags of the command, with numbers where numbers are due, and none is missing that must be there -/
structure Acceptable (parseUint : Bytes → Option UInt64) (c : Command) (l : List GivenFlag) : Prop where
  known : ∀ name v, (name, v) ∈ l → name ∈ mustHave c ∨ name ∈ mayHave c
  number : ∀ name v, (name, v) ∈ l → name ∈ numbers → ∃ k, parseUint v = some k
  complete : ∀ name ∈ mustHave c, IsGiven l name

/-- the caller, the value, the gas and the arguments are what the flags say; there is an argument for each flag `arguments` given -/
structure SaysCommon (parseUint : Bytes → Option UInt64) (l : List GivenFlag) (c : Common) : Prop where
  caller : FlagText l "impersonated" [] c.impersonatedHex
  value : FlagText l "value" [] c.value
  gasPrice : FlagNumber parseUint l "gas-price" c.gasPrice
  gasLimit : FlagNumber parseUint l "gas-limit" c.gasLimit
  arguments : c.argumentsHex = (l.filter fun x => x.1 = "arguments").map (·.2)

/-- the code is what the flags say -/
structure SaysCode (l : List GivenFlag) (c : CodeOf) : Prop where
  hex : FlagText l "code" [] c.hex
  path : FlagText l "code-path" [] c.path
  metadata : FlagText l "code-metadata" [] c.metadata

/-- the folder, the name of the world and the name of the outcome are what the flags say -/
structure SaysBase (l : List GivenFlag) (r : Req) : Prop where
  database : FlagText l "database" [] r.database
  world : FlagText l "world" [] r.world
  outcome : FlagText l "outcome" [] r.outcome

/-- the command and the flags ask for this; the server listens at `:9091` if no address is given -/
inductive AsksFor (parseUint : Bytes → Option UInt64) (l : List GivenFlag) : Command → Task → Prop
  | server {address} : FlagText l "address" [58, 57, 48, 57, 49] address → AsksFor parseUint l .server (.serve address)
  | deploy {r c code} : SaysBase l r → r.act = .deploy c code → SaysCommon parseUint l c → SaysCode l code →
      AsksFor parseUint l .deploy (.request r)
  | upgrade {r c code contract} : SaysBase l r → r.act = .upgrade c code contract → SaysCommon parseUint l c → SaysCode l code →
      FlagText l "contract" [] contract → AsksFor parseUint l .upgrade (.request r)
  | run {r c contract function} : SaysBase l r → r.act = .run c contract function → SaysCommon parseUint l c →
      FlagText l "contract" [] contract → FlagText l "function" [] function → AsksFor parseUint l .run (.request r)
  | query {r c contract function} : SaysBase l r → r.act = .query c contract function → SaysCommon parseUint l c →
      FlagText l "contract" [] contract → FlagText l "function" [] function → AsksFor parseUint l .query (.request r)
  | createAccount {r address balance nonce} : SaysBase l r → r.act = .createAccount address balance nonce →
      FlagText l "address" [] address → FlagText l "balance" [] balance → FlagNumber parseUint l "nonce" nonce →
      AsksFor parseUint l .createAccount (.request r)

/-- what the commands are called -/
def nameOfCommand : Command → String
  | .server => "server"
  | .deploy => "deploy"
  | .upgrade => "upgrade"
  | .run => "run"
  | .query => "query"
  | .createAccount => "create-account"

/-- how the program ends after a request: with 0 if it was answered, with 1 after an error -/
inductive EndsWith : Result → ProgramEnd → Prop
  | refused : EndsWith .refused (.exit 1)
  | unreadable : EndsWith .unreadable (.exit 1)
  | crashed : EndsWith .crashed .panic
  | stopped : EndsWith .stopped .killed
  | done (r : Reply) : EndsWith (.done r) (.exit 0)

end Arwen.Spec
