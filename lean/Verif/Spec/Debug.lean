import Verif.World.Debug
import Verif.Host.TopSim
/-
The debugger, as its user sees it.
-/
namespace Arwen.Spec
open Arwen.Mock Arwen.Debug

/-- well-formed UTF-8: the bytes of some characters -/
def IsText (s : Bytes) : Prop := ∃ cs : List Char, s = cs.flatMap String.utf8EncodeChar

/-- the name of a file without any folders -/
def PlainName (s : Bytes) : Prop := IsText s ∧ (47 : UInt8) ∉ s

/-- the folder that a request is for: `./db` if it names none -/
def folderOf (r : Req) : Bytes := if r.database = [] then [46, 47, 100, 98] else r.database
/-- the name of the world that a request is for: `default` if it names none -/
def nameOf (r : Req) : Bytes := if r.world = [] then [100, 101, 102, 97, 117, 108, 116] else r.world

/-- the world is named without folders, and so is the outcome if it is to be kept -/
structure PlainReq (r : Req) : Prop where
  name : PlainName (nameOf r)
  outcome : r.outcome ≠ [] → PlainName r.outcome

/-- accounts whose addresses, keys of stored values and data of async calls are all well-formed UTF-8 -/
def TextWorld (m : AccountMap) : Prop :=
  ∀ a acc, m.get? a = some acc → IsText a ∧ IsText acc.asyncCallData ∧ ∀ k v, acc.storage.get? k = some v → IsText k

/-- a folder as the debugger makes it: in the file of a world is that world, unless the writing was interrupted -/
def Tidy (d : Disk) : Prop :=
  ∀ root name, root ≠ [] → PlainName name →
    d.get? (worldFile root name) = none ∨ d.get? (worldFile root name) = some .torn ∨
    ∃ m, d.get? (worldFile root name) = some (.world name m) ∧ TextWorld m

/-- the accounts that a request to this world finds; none if the world cannot be read -/
def found (d : Disk) (root name : Bytes) : Option AccountMap := (load d root name).bind fun p => p.2

/-- the request is for this world: the same folder, perhaps written in a different way, and the same name -/
def ForWorld (root name : Bytes) (r : Req) : Prop := clean (folderOf r) = clean root ∧ nameOf r = name

instance (root name : Bytes) (r : Req) : Decidable (ForWorld root name r) := by unfold ForWorld; infer_instance

/-- two accounts with the same content; what is stored may be listed in a different order -/
structure SameAccount (x y : WAcc) : Prop where
  rest : { x with storage := y.storage } = y
  storage : ∀ k, x.storage.get? k = y.storage.get? k

/-- two sets of accounts with the same content -/
def SameEntries (m m' : AccountMap) : Prop :=
  ∀ a, (m.get? a = none ∧ m'.get? a = none) ∨ ∃ x y, m.get? a = some x ∧ m'.get? a = some y ∧ SameAccount x y

/-- the same is found: the world is unreadable both times, or has the same accounts -/
def SameFound : Option AccountMap → Option AccountMap → Prop
  | none, none => True
  | some m, some m' => SameEntries m m'
  | _, _ => False

/-- the request did not succeed: it was refused, or its world was unreadable, or it ended with a panic, or the execution failed -/
def Failed : Result → Prop
  | .refused | .unreadable | .crashed => True
  | .stopped => False
  | .done (.account ..) => False
  | .done (.output none) => True
  | .done (.output (some o)) => o.returnCode ≠ .ok

/-- the output names accounts, keys of stored values and data of transfers in well-formed UTF-8 -/
def TextOutput (o : VMOutput) : Prop :=
  ∀ a x, o.accounts.get? a = some x → IsText a ∧ (∀ k v, x.storage.get? k = some v → IsText k) ∧
    ∀ t rest, x.transfers = t :: rest → IsText t.data

/-- what an output makes of an account, for what a later execution can see of it: the balance changes by the reported difference,
the nonce grows to the reported one, the reported values are stored and the reported code is put in place -/
structure OutputApplied (x : OutAcc) (before : Option WAcc) (after : WAcc) : Prop where
  balance : after.balance = (before.map WAcc.balance).getD 0 + x.balanceDelta
  nonce : after.nonce = if x.nonce > (before.map WAcc.nonce).getD 0 then x.nonce else (before.map WAcc.nonce).getD 0
  storage : ∀ k, after.storage.get? k = (x.storage.get? k).or (before.bind fun acc => acc.storage.get? k)
  code : after.code = if x.code ≠ [] then x.code else (before.map WAcc.code).getD []
  owner : after.owner = (before.map WAcc.owner).getD (x.deployer.getD [])

/-- the reply says what happened to the accounts -/
def Happened (reply : Reply) (before after : AccountMap) : Prop :=
  match reply with
  | .account a acc => ∀ b, if b = a then ∃ y, after.get? b = some y ∧ SameAccount y acc
      else (before.get? b = none ∧ after.get? b = none) ∨ ∃ x y, before.get? b = some x ∧ after.get? b = some y ∧ SameAccount x y
  | .output none => SameEntries before after
  | .output (some o) => ∀ b, match o.accounts.get? b with
      | none => (before.get? b = none ∧ after.get? b = none) ∨ ∃ x y, before.get? b = some x ∧ after.get? b = some y ∧ SameAccount x y
      | some x => ∃ y, after.get? b = some y ∧ OutputApplied x (before.get? b) y

/-- the reply uses only well-formed UTF-8 where the debugger writes texts -/
def TextReply : Reply → Prop
  | .account a acc => IsText a ∧ IsText acc.asyncCallData ∧ ∀ k v, acc.storage.get? k = some v → IsText k
  | .output none => True
  | .output (some o) => TextOutput o

/-- each request starts a new VM on the world that was read -/
def NewVM {A : Type} (E : Env MockWorld A) (boot : MockWorld → St MockWorld A) : Prop := ∀ w, AtRest E (boot w) ∧ (boot w).world = w

/-- the request is a query -/
def IsQuery (r : Req) : Prop := ∃ c a f, r.act = .query c a f

/-- the texts of a request for a call or deployment mean this input: numbers in decimal, everything else in hexadecimal -/
structure CommonMeans (c : Common) (vm : VMInput) : Prop where
  caller : c.impersonatedHex ≠ [] ∧ hexDecode c.impersonatedHex = some vm.caller
  args : c.argumentsHex.map hexDecode = vm.args.map some
  value : (c.value = [] ∧ vm.callValue = 0) ∨ (c.value ≠ [] ∧ Mandos.setString 10 c.value = some vm.callValue)
  price : vm.gasPrice = if c.gasPrice = 0 then 200000000000 else c.gasPrice
  gas : vm.gasProvided = c.gasLimit ∧ c.gasLimit ≠ 0
  rest : vm = { caller := vm.caller, args := vm.args, callValue := vm.callValue, gasPrice := vm.gasPrice, gasProvided := vm.gasProvided }

/-- the code of a request: in a file if there is one, otherwise in hexadecimal, which must be well-formed in any case; and its metadata, by default that of an upgradeable contract -/
structure CodeMeans (readCode : Bytes → Option Bytes) (c : CodeOf) (bytes md : Bytes) : Prop where
  code : if c.path = [] then hexDecode c.hex = some bytes else readCode c.path = some bytes
  hex : hexDecode c.hex ≠ none
  nonempty : bytes ≠ []
  metadata : if c.metadata = [] then md = [1, 0] else hexDecode c.metadata = some md

/-- what a request asks the virtual machine to do -/
inductive Means (readCode : Bytes → Option Bytes) : Act → Tx → Prop
  | deploy {c : Common} {k : CodeOf} {vm : VMInput} {code metadata : Bytes} : CommonMeans c vm → CodeMeans readCode k code metadata →
      Means readCode (.deploy c k) (.create { vm := vm, code := code, metadata := metadata })
  | upgrade {c : Common} {k : CodeOf} {hex : Bytes} {vm : VMInput} {code metadata : Bytes} {a : Addr} : CommonMeans c vm →
      CodeMeans readCode k code metadata → hexDecode hex = some a →
      Means readCode (.upgrade c k hex) (.call { vm := { vm with args := [code, metadata] ++ vm.args }, recipient := a,
                                                 function := "upgradeContract".toUTF8.data.toList })
  | run {c : Common} {hex function : Bytes} {vm : VMInput} {a : Addr} : CommonMeans c vm → hexDecode hex = some a →
      Means readCode (.run c hex function) (.call { vm := vm, recipient := a, function := function })
  | query {c : Common} {hex function : Bytes} {vm : VMInput} {a : Addr} : CommonMeans c vm → hexDecode hex = some a →
      Means readCode (.query c hex function) (.call { vm := vm, recipient := a, function := function })

end Arwen.Spec
