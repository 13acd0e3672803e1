import Verif.World.Executor
import Verif.Mandos.Expr
/-
The debugger (`arwendebug`): requests against worlds that are kept in files between the requests.
-/
namespace Arwen.Debug
open Arwen.Mock

/-! ### Texts in JSON (`encoding/json` of Go, external)

A Go string is written as a JSON string; each byte that is not part of a well-formed UTF-8 sequence is written as `�`. Byte
slices are written in base64 and numbers in decimal, so that they are read as they were. -/

/-- a byte `10xxxxxx` -/
def isCont (b : UInt8) : Bool := 0x80 ≤ b && b ≤ 0xBF

/-- the length of the UTF-8 sequence at the beginning, 0 if there is none: `utf8.DecodeRuneInString` -/
def runeLen : Bytes → Nat
  | [] => 0
  | a :: r =>
    if a < 0x80 then 1
    else if 0xC2 ≤ a && a ≤ 0xDF then
      match r with
      | b :: _ => if isCont b then 2 else 0
      | _ => 0
    else if 0xE0 ≤ a && a ≤ 0xEF then
      match r with
      | b :: c :: _ =>
        if (if a = 0xE0 then 0xA0 else 0x80) ≤ b && b ≤ (if a = 0xED then 0x9F else 0xBF) && isCont c then 3 else 0
      | _ => 0
    else if 0xF0 ≤ a && a ≤ 0xF4 then
      match r with
      | b :: c :: d :: _ =>
        if (if a = 0xF0 then 0x90 else 0x80) ≤ b && b ≤ (if a = 0xF4 then 0x8F else 0xBF) && isCont c && isCont d then 4 else 0
      | _ => 0
    else 0

/-- the string that is read after the given one was written; the first argument counts the bytes of an accepted sequence that are
still to be copied -/
def coerceFrom : Nat → Bytes → Bytes
  | _, [] => []
  | k + 1, b :: r => b :: coerceFrom k r
  | 0, b :: r =>
    match runeLen (b :: r) with
    | 0 => 0xEF :: 0xBF :: 0xBD :: coerceFrom 0 r
    | n + 1 => b :: coerceFrom n r

/-- the string that is read after the given one was written -/
def coerce (s : Bytes) : Bytes := coerceFrom 0 s

/-- the order of Go's strings -/
def bytesLe : Bytes → Bytes → Bool
  | [], _ => true
  | _ :: _, [] => false
  | a :: r, b :: s => if a = b then bytesLe r s else a < b

/-- insertion of an entry into a sorted list -/
def insertSorted {V : Type} (p : Bytes × V) : List (Bytes × V) → List (Bytes × V)
  | [] => [p]
  | q :: l => if bytesLe p.1 q.1 then p :: q :: l else q :: insertSorted p l

/-- the entries in the order of their keys -/
def sortEntries {V : Type} : List (Bytes × V) → List (Bytes × V)
  | [] => []
  | p :: l => insertSorted p (sortEntries l)

/-- a map that is written and read back: the keys are written in their order, and when a key occurs twice the last one counts -/
def rereadMap {V : Type} (f : V → V) (m : AMap Bytes V) : AMap Bytes V :=
  (sortEntries m.entries).foldl (fun acc p => acc.insert (coerce p.1) (f p.2)) AMap.empty

/-- `Clone`, written and read back: `mock/world/worldAccount.go` 250-285 and the fields 21-39. The keys of the storage and the data of
the async call are strings, everything else is exact. -/
def rereadAccount (a : WAcc) : WAcc :=
  { a with storage := rereadMap id a.storage, asyncCallData := coerce a.asyncCallData }

/-- the accounts of a world after `toDataModel`, `arwendebug/world.go` 131-141, `marshalDataModel` and `unmarshalDataModel`,
`arwendebug/database.go` 107-125. The addresses are the keys. -/
def reread (m : AccountMap) : AccountMap := rereadMap rereadAccount m

/-! ### Files -/

/-- a path after `path.Clean` of Go: whether it is absolute, and its components, the last one first -/
structure Path where
  rooted : Bool
  parts : List Bytes
  deriving DecidableEq, Repr

/-- the parts between slashes -/
def splitSlash : Bytes → List Bytes
  | [] => [[]]
  | c :: cs =>
    if c = 47 then [] :: splitSlash cs
    else match splitSlash cs with
      | [] => [[c]]
      | t :: ts => (c :: t) :: ts

/-- one component of a path in `path.Clean` (external): `.` and empty ones are dropped, `..` removes the one before -/
def cleanStep (rooted : Bool) (parts : List Bytes) (c : Bytes) : List Bytes :=
  if c = [] ∨ c = [46] then parts
  else if c = [46, 46] then
    match parts with
    | [] => if rooted then [] else [c]
    | t :: rest => if t = [46, 46] then c :: parts else rest
  else c :: parts

/-- `path.Clean` (external) -/
def clean (p : Bytes) : Path :=
  { rooted := p.head? = some 47, parts := (splitSlash p).foldl (cleanStep (p.head? = some 47)) [] }

def worldsDir : Bytes := [119, 111, 114, 108, 100, 115]
def outDir : Bytes := [111, 117, 116]
def dotJson : Bytes := [46, 106, 115, 111, 110]

/-- `path.Join(root, dir, name + ".json")` for a root that is not empty -/
def filePath (root dir name : Bytes) : Path := clean (root ++ 47 :: dir ++ 47 :: (name ++ dotJson))

/-- `getWorldFile`, `arwendebug/database.go` 59-61 -/
def worldFile (root name : Bytes) : Path := filePath root worldsDir name

/-- `getOutcomeFile`, `arwendebug/database.go` 103-105 -/
def outcomeFile (root key : Bytes) : Path := filePath root outDir key

/-- the response to a request: the account that was made, or the output of the VM (none after an error of the VM). The address of a
deployed contract (`LastCreatedContractAddress` of the mock world) is left out. -/
inductive Reply
  | account (address : Addr) (acc : WAcc)
  | output (o : Option VMOutput)

/-- the content of a file: a world (`worldDataModel`, `arwendebug/world.go` 14-17) as it will be read, an outcome, or what is left
when the program ends while it writes the file -/
inductive File
  | world (id : Bytes) (accounts : AccountMap)
  | outcome (r : Reply)
  | torn

/-- the file system, seen by the debugger. The folders are made first (`initFolders`, `arwendebug/database.go` 23-33); that a write
can fail for other reasons is left out, as are links between files. -/
abbrev Disk := AMap Path File

/-- `loadWorld` with `readWorldDataModel`, `arwendebug/database.go` 35-76: the identifier that the world will be stored under, and its
accounts; `none` for a file that cannot be read. A file with an outcome has no field of a world, which gives an empty identifier and
a nil map. -/
def load (d : Disk) (root name : Bytes) : Option (Bytes × Option AccountMap) :=
  match d.get? (worldFile root name) with
  | none => some (name, some AMap.empty)
  | some (.world id m) => some (id, some m)
  | some (.outcome _) => some ([], none)
  | some .torn => none

/-! ### Requests -/

/-- `ContractRequestBase` with the arguments, `arwendebug/messagesBase.go` 35-43, `arwendebug/messagesRun.go` 4-11 -/
structure Common where
  impersonatedHex : Bytes
  value : Bytes := []
  gasPrice : UInt64 := 0
  gasLimit : UInt64 := 0
  argumentsHex : List Bytes := []

/-- the code of a `DeployRequest`, `arwendebug/messagesDeploy.go` 10-19 -/
structure CodeOf where
  hex : Bytes := []
  path : Bytes := []
  metadata : Bytes := []

/-- what is requested, `arwendebug/messages*.go` -/
inductive Act
  | createAccount (addressHex balance : Bytes) (nonce : UInt64)
  | deploy (c : Common) (code : CodeOf)
  | upgrade (c : Common) (code : CodeOf) (contractHex : Bytes)
  | run (c : Common) (contractHex function : Bytes)
  | query (c : Common) (contractHex function : Bytes)

/-- a request with its `RequestBase`, `arwendebug/messagesBase.go` 10-14 -/
structure Req where
  database : Bytes := []
  world : Bytes := []
  outcome : Bytes := []
  act : Act

/-- `./db` -/
def defaultRoot : Bytes := [46, 47, 100, 98]
/-- `default` -/
def defaultWorld : Bytes := [100, 101, 102, 97, 117, 108, 116]

/-- `digest` of the `RequestBase`, `arwendebug/messagesBase.go` 16-26 -/
def Req.root (r : Req) : Bytes := if r.database = [] then defaultRoot else r.database
def Req.name (r : Req) : Bytes := if r.world = [] then defaultWorld else r.world

/-- a request with everything decoded, as the world carries it out -/
inductive Order
  | account (address : Addr) (balance : Int) (nonce : UInt64)
  | deploy (i : CreateInput)
  | call (i : CallInput)
  | query (i : CallInput)

/-- `parseValue`, `arwendebug/common.go` 24-35 -/
def parseValue (v : Bytes) : Option Int := if v = [] then some 0 else Mandos.setString 10 v

/-- `DefaultGasPrice`, `arwendebug/constants.go` -/
def defaultGasPrice : UInt64 := 200000000000

/-- `digest` of the `ContractRequestBase`, `arwendebug/messagesBase.go` 45-73, with `decodeArguments`, `arwendebug/common.go` 9-22, and the
fields of the VM's input that `arwendebug/worldInput.go` sets -/
def digestCommon (c : Common) : Option VMInput :=
  if c.impersonatedHex = [] then none
  else match hexDecode c.impersonatedHex with
    | none => none
    | some caller =>
      if c.gasLimit = 0 then none
      else match parseValue c.value with
        | none => none
        | some v => (c.argumentsHex.mapM hexDecode).map fun args =>
          { caller := caller, args := args, callValue := v, gasPrice := if c.gasPrice = 0 then defaultGasPrice else c.gasPrice,
            gasProvided := c.gasLimit }

/-- the code and its metadata in the `digest` of the `DeployRequest`, `arwendebug/messagesDeploy.go` 27-54; `readCode` reads a file.
A file takes precedence over code in the request, and the metadata is that of an upgradeable contract if none is given. -/
def digestCode (readCode : Bytes → Option Bytes) (c : CodeOf) : Option (Bytes × Bytes) :=
  match (if c.hex = [] then some [] else hexDecode c.hex) with
  | none => none
  | some inline =>
    match (if c.path = [] then some inline else readCode c.path) with
    | none => none
    | some code =>
      if code = [] then none
      else (if c.metadata = [] then some [1, 0] else hexDecode c.metadata).map fun md => (code, md)

/-- `digest` of all kinds of requests, `arwendebug/messages*.go`, and `arwendebug/worldInput.go`; `none` for an error -/
def digest (readCode : Bytes → Option Bytes) : Act → Option Order
  | .createAccount addressHex balance nonce =>
    if addressHex = [] then none
    else match hexDecode addressHex, parseValue balance with
      | some a, some b => some (.account a b nonce)
      | _, _ => none
  | .deploy c code =>
    match digestCommon c, digestCode readCode code with
    | some vm, some (bytes, md) => some (.deploy { vm := vm, code := bytes, metadata := md })
    | _, _ => none
  | .upgrade c code contractHex =>
    match digestCommon c, digestCode readCode code, hexDecode contractHex with
    | some vm, some (bytes, md), some a =>
      some (.call { vm := { vm with args := bytes :: md :: vm.args }, recipient := a, function := upgradeName })
    | _, _, _ => none
  | .run c contractHex function =>
    match digestCommon c, hexDecode contractHex with
    | some vm, some a => some (.call { vm := vm, recipient := a, function := function })
    | _, _ => none
  | .query c contractHex function =>
    match digestCommon c, hexDecode contractHex with
    | some vm, some a => some (.query { vm := vm, recipient := a, function := function })
    | _, _ => none

/-! ### Worlds -/

/-- `newWorld`, `arwendebug/world.go` 33-53, with `NewMockWorld`, `mock/world/worldDef.go` 43-59 -/
def newWorld (m : AccountMap) : MockWorld := { accts := m }

section
variable {A : Type} (E : Env MockWorld A) (L : Lib) (n : Nat) (boot : MockWorld → St MockWorld A)

/-- `UpdateAccounts` after the VM, `arwendebug/world.go` 70-73, 89-92, 106-109: whatever the return code is, but not after an error of
the VM. Inner `none`: a panic, on writing into the nil map of a world that was read from the file of an outcome. -/
def keepOutput (nil_ : Bool) (w : MockWorld) : Option VMOutput → Option AccountMap
  | none => some w.accts
  | some o => if nil_ && !o.accounts.entries.isEmpty then none else some (w.updateAccounts L o.accounts).accts

/-- carrying out an order on a world with these accounts, with a new VM (`boot`), `arwendebug/world.go` 65-129: the response and
the accounts afterwards. Outer `none`: the model's fuel for nested calls was exhausted; inner `none`: a panic. `GenerateMockAddress`
(`mock/world/worldUtil.go`) panics for creators of less than 30 bytes, which the VM turns into an error. -/
def perform (o : Order) (accts : Option AccountMap) : Option (Option (Reply × AccountMap)) :=
  let m := accts.getD AMap.empty
  match o with
  | .account a b nonce =>
    let acc : WAcc := { exists_ := false, nonce := nonce, balance := b }
    some (accts.map fun m => (.account a acc, m.insert a acc))
  | .deploy i =>
    if i.vm.caller.length < 30 then some (some (.output none, m))
    else
      let r := runTx E n (.create i) (boot (newWorld m))
      r.1.map fun out => (keepOutput L accts.isNone r.2.world out).map fun m => (.output out, m)
  | .call i =>
    let r := runTx E n (.call i) (boot (newWorld m))
    r.1.map fun out => (keepOutput L accts.isNone r.2.world out).map fun m => (.output out, m)
  | .query i =>
    let r := runTx E n (.call i) (boot (newWorld m))
    r.1.map fun out => some (.output out, m)

/-- a query is not followed by `storeWorld`, `arwendebug/facade.go` 117-143 -/
def Order.stores : Order → Bool
  | .query _ => false
  | _ => true

/-- where the program may be ended from outside: before it writes the world, while it does, before it writes the outcome, while it
does -/
inductive Stop | beforeWorld | inWorld | beforeOutcome | inOutcome
  deriving DecidableEq, Repr

/-- what becomes of a request: an error of `digest`, an error of `loadWorld`, a panic, an end from outside, or a response -/
inductive Result
  | refused
  | unreadable
  | crashed
  | stopped
  | done (r : Reply)

/-- `storeOutcome`, `arwendebug/database.go` 86-101 -/
def storeOutcome (r : Req) (stop : Option Stop) (reply : Reply) (d : Disk) : Result × Disk :=
  if r.outcome = [] then (.done reply, d)
  else match stop with
    | some .beforeOutcome => (.stopped, d)
    | some .inOutcome => (.stopped, d.insert (outcomeFile r.root r.outcome) .torn)
    | _ => (.done reply, d.insert (outcomeFile r.root r.outcome) (.outcome reply))

/-- `storeWorld`, `arwendebug/database.go` 78-84: under the identifier that was read with the world -/
def storeWorld (root id : Bytes) (m : AccountMap) (d : Disk) : Disk := d.insert (worldFile root id) (.world (coerce id) (reread m))

/-- `storeWorld` if the request is not a query, and `storeOutcome`, `arwendebug/facade.go` -/
def writeBack (r : Req) (stop : Option Stop) (order : Order) (id : Bytes) (reply : Reply) (m : AccountMap) (d : Disk) : Result × Disk :=
  if order.stores then
    match stop with
    | some .beforeWorld => (.stopped, d)
    | some .inWorld => (.stopped, d.insert (worldFile r.root id) .torn)
    | _ => storeOutcome r stop reply (storeWorld r.root id m d)
  else storeOutcome r stop reply d

/-- one request, `arwendebug/facade.go` 21-169 (all five have the same steps) -/
def handle (readCode : Bytes → Option Bytes) (r : Req) (stop : Option Stop) (d : Disk) : Option (Result × Disk) :=
  match digest readCode r.act with
  | none => some (.refused, d)
  | some order =>
    match load d r.root r.name with
    | none => some (.unreadable, d)
    | some (id, accts) =>
      match perform E L n boot order accts with
      | none => none
      | some none => some (.crashed, d)
      | some (some (reply, m)) =>
        some (writeBack r stop order id reply m d)

/-- requests one after the other -/
def history (readCode : Bytes → Option Bytes) : List (Req × Option Stop) → Disk → Option (List Result × Disk)
  | [], d => some ([], d)
  | (r, stop) :: rest, d =>
    match handle E L n boot readCode r stop d with
    | none => none
    | some (res, d) => (history readCode rest d).map fun (l, d) => (res :: l, d)

end

end Arwen.Debug
