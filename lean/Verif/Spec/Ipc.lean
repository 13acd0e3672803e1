import Verif.Ipc.Pipe
import Verif.Ipc.Output
import Verif.Ipc.Parts
/-
Messages on a pipe, as the two processes see them.
-/
namespace Arwen.Spec
open Arwen.Ipc

/-- a message: its kind and its marshalled bytes -/
abbrev WireMsg := UInt32 × Bytes

/-- the bytes that the sender writes for a sequence of messages -/
def written (ms : List WireMsg) : Bytes := (ms.map fun m => frame m.1 m.2).flatten

/-- the pipe delivers these bytes, in some pieces, and then ends -/
def Delivers (cs : Stream) (b : Bytes) : Prop := cs.flatten = b

/-- all messages are shorter than 4 GiB -/
def Short (ms : List WireMsg) : Prop := ∀ m ∈ ms, m.2.length < 2 ^ 32

/-! ### Outputs -/

/-- iteration visits every entry of the map once, in some order -/
structure Fair (ord : Orders) : Prop where
  accounts : ∀ m, (ord.accounts m).Perm m.entries
  storage : ∀ m, (ord.storage m).Perm m.entries
  pairs : ∀ m, (ord.pairs m).Perm m.entries

/-- the same account: all fields are equal and every storage key has the same update -/
structure SameRawAcc (a b : RawAcc) : Prop where
  address : a.address = b.address
  nonce : a.nonce = b.nonce
  balance : a.balance = b.balance
  balanceDelta : a.balanceDelta = b.balanceDelta
  storage : ∀ k, a.storage.get? k = b.storage.get? k
  code : a.code = b.code
  codeMetadata : a.codeMetadata = b.codeMetadata
  gasUsed : a.gasUsed = b.gasUsed
  transfers : a.transfers = b.transfers
  deployer : a.deployer = b.deployer

/-- the same output: all fields are equal and every address has the same account -/
structure SameOutput (a b : RawOutput) : Prop where
  returnData : a.returnData = b.returnData
  returnCode : a.returnCode = b.returnCode
  returnMessage : a.returnMessage = b.returnMessage
  gasRemaining : a.gasRemaining = b.gasRemaining
  gasRefund : a.gasRefund = b.gasRefund
  accounts : ∀ k, match a.accounts.get? k, b.accounts.get? k with
    | some x, some y => SameRawAcc x y
    | none, none => True
    | _, _ => False
  deleted : a.deleted = b.deleted
  touched : a.touched = b.touched
  logs : a.logs = b.logs

/-- accounts are stored under their addresses and storage updates under their keys -/
def KeysAgree (o : RawOutput) : Prop :=
  ∀ k acc, o.accounts.get? k = some acc → acc.address = k ∧ ∀ q u, acc.storage.get? q = some u → u.offset = q

/-- the account of an output of the host, with its address -/
def rawAcc (k : Addr) (a : OutAcc) : RawAcc :=
  { address := k, nonce := a.nonce, balance := a.balance, balanceDelta := some a.balanceDelta
    storage := mapOf (a.storage.entries.map fun p => (p.1, ⟨p.1, p.2⟩))
    code := a.code, codeMetadata := a.codeMetadata, gasUsed := a.gasUsed, transfers := a.transfers, deployer := a.deployer.getD [] }

/-- an output of the host's model as the host hands it out -/
def rawOutput (o : VMOutput) : RawOutput :=
  { returnData := o.returnData, returnCode := o.returnCode, returnMessage := o.returnMessage, gasRemaining := o.gasRemaining
    gasRefund := some o.gasRefund
    accounts := mapOf (o.accounts.entries.map fun p => (p.1, rawAcc p.1 p.2))
    logs := o.logs }

/-! ### Dialogues -/

inductive Side
  | node | arwen
  deriving DecidableEq, Repr

def Side.other : Side → Side
  | .node => .arwen
  | .arwen => .node

/-- A dialogue over an unreliable network: both messengers, the messages sent so far, which messages were accepted by whom (by
their place in the log), and whose turn it is to send; nobody's while a message is under way. -/
structure Dialogue where
  node : Messenger := {}
  arwen : Messenger := {}
  log : List (Side × Msg) := []
  accepted : List (Side × Nat) := []
  turn : Option Side := some .node

def Dialogue.of (d : Dialogue) : Side → Messenger
  | .node => d.node
  | .arwen => d.arwen

def Dialogue.set (d : Dialogue) (x : Side) (r : Messenger) : Dialogue :=
  match x with
  | .node => { d with node := r }
  | .arwen => { d with arwen := r }

/-- What can happen: the side whose turn it is sends any message; or the network delivers any message that was ever sent in this
dialogue, to any side, at any time, again or out of order. A side that accepts a message has the turn; a message that is not
accepted changes nothing. Messages that are lost are never delivered. -/
inductive Dialogue.Step : Dialogue → Dialogue → Prop
  | send (d : Dialogue) (x : Side) (m : Msg) : d.turn = some x →
      Step d { d.set x ((d.of x).send m).1 with log := d.log ++ [(x, ((d.of x).send m).2)], turn := none }
  | accept (d : Dialogue) (x y : Side) (i : Nat) (m : Msg) (r : Messenger) : d.log[i]? = some (y, m) →
      (d.of x).receive m = some r → Step d { d.set x r with accepted := d.accepted ++ [(x, i)], turn := some x }
  | reject (d : Dialogue) (x y : Side) (i : Nat) (m : Msg) : d.log[i]? = some (y, m) → (d.of x).receive m = none → Step d d

inductive Dialogue.Reached : Dialogue → Prop
  | start : Reached {}
  | step {d e : Dialogue} : Reached d → Step d e → Reached e

/-- who sends the n-th message: the node the first one, then in turns -/
def sender (n : Nat) : Side := if n % 2 = 0 then .node else .arwen

/-! ### Hook calls over the pipe -/

/-- the answer of the blockchain hook to a question asked directly -/
def answer (f : HookFn) (q : Result f × Option Bytes) : Except Bytes (Result f) :=
  match f.fallible, q.2 with
  | true, some text => .error text
  | _, _ => .ok q.1

/-- the virtual machine run inside the node: it asks the hook directly -/
def runDirect {W R : Type} (hook : (f : HookFn) → Args f → W → (Result f × Option Bytes) × W) : IProg R → W → R × W
  | .ret r, w => (r, w)
  | .ask f a k, w => runDirect hook (k (answer f (hook f a w).1)) (hook f a w).2

/-- how often a direct run asks the hook -/
def questions {W R : Type} (hook : (f : HookFn) → Args f → W → (Result f × Option Bytes) × W) : IProg R → W → Nat
  | .ret _, _ => 0
  | .ask f a k, w => questions hook (k (answer f (hook f a w).1)) (hook f a w).2 + 1

/-- a run asks only for functions in `P` -/
def Asks {R : Type} (P : HookFn → Prop) : IProg R → Prop
  | .ret _ => True
  | .ask f _ k => P f ∧ ∀ x, Asks P (k x)

/-- the functions of the hook that the node does not recognise as hook calls -/
def Unrecognised (f : HookFn) : Prop :=
  f = .processBuiltInFunction ∨ f = .clearCompiledCodes ∨ f = .getSnapshot ∨ f = .revertToSnapshot

/-- the other functions that are asked over the pipe, whose results do not depend on the order of a map's iteration -/
def Supported (f : HookFn) : Prop := ¬ Unrecognised f ∧ f ≠ .isInterfaceNil ∧ f ≠ .getAllState

/-- errors of the hook have texts, and `fmt.Errorf` leaves these texts alone (they have no per cent signs) -/
def PlainErrors {W : Type} (N : Node W) : Prop := ∀ f a w text, (N.hook f a w).1.2 = some text → text ≠ [] ∧ N.errorf text = text

/-- how long the node waits for `n` messages of a loop -/
def waiting {W : Type} (N : Node W) (n : Nat) : Nat := ((List.range n).map N.clock).sum

/-- what the driver returns for a result of the host -/
def Agrees (d : Driven) (r : Option RawOutput × Option Bytes) : Prop :=
  match r with
  | (_, some text) => d = .error text
  | (some o, none) => ∃ o', d = .output o' ∧ SameOutput o' o
  | (none, none) => d = .output {}

end Arwen.Spec
