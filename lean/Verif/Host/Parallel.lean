import Verif.Host.TopSim
import Verif.Config.Schedule
/-
Model of requests to the virtual machine that come in parallel: the mutex of the host (`arwen/host/arwen.go` 35), which
`RunSmartContractCreate` (328-329) and `RunSmartContractCall` (352-353) take for reading and `GasScheduleChange` (305-306) for
writing, and the operations under it, step by step. Go's scheduler may pick any request that is able to go on; what a single step
does is not interrupted.
-/
namespace Arwen
variable {σ R : Type}

/-- The work of a request on the shared state, divided into steps that are not interrupted; `next` sees the state before its step. -/
inductive Act (σ R : Type) where
  | done (r : R)
  | step (change : σ → σ) (next : σ → Act σ R)

/-- a request that is alone -/
def Act.run : Act σ R → σ → R × σ
  | .done r, s => (r, s)
  | .step g k, s => (k s).run (g s)

/-- how a request uses the mutex -/
inductive Guard
  /-- `RLock` -/
  | reading
  /-- `Lock` -/
  | writing
  /-- not at all -/
  | none
  deriving DecidableEq, Repr

/-- where a request is -/
inductive Phase (σ R : Type) where
  /-- before the lock -/
  | waiting
  /-- `Lock` keeps new readers and writers out and waits for the readers that are inside -/
  | announced
  /-- at work; this is left to do -/
  | inside (a : Act σ R)
  /-- after the unlock -/
  | finished (r : R)

/-- a request -/
structure Request (σ R : Type) where
  guard : Guard
  work : Act σ R
  phase : Phase σ R := .waiting

/-- The shared state and the requests, numbered. `readers` and `writer` are the `sync.RWMutex`, which itself only counts: the
requests that read, and the request that writes or waits for the readers. Readers that have waited for a writer go before the next
writer in Go; here either may. `order` is the model's own: the finished requests, in the order in which they unlocked. -/
structure Par (σ R : Type) where
  state : σ
  requests : Nat → Request σ R
  readers : List Nat := []
  writer : Option Nat := none
  order : List Nat := []

/-- requests that nobody has looked at yet -/
def Par.start (state : σ) (guard : Nat → Guard) (work : Nat → Act σ R) : Par σ R :=
  { state := state, requests := fun i => { guard := guard i, work := work i } }

/-- one request moves to another phase -/
def Par.move (s : Par σ R) (i : Nat) (p : Phase σ R) : Par σ R :=
  { s with requests := fun j => if j = i then { s.requests i with phase := p } else s.requests j }

/-- the deferred `RUnlock` or `Unlock`; deferred functions run after a panic, too -/
def Par.unlock (s : Par σ R) (i : Nat) : Par σ R :=
  match (s.requests i).guard with
  | .reading => { s with readers := s.readers.erase i }
  | .writing => { s with writer := none }
  | .none => s

/-- The scheduler picks a request; nothing happens if it cannot go on. -/
def Par.pick (i : Nat) (s : Par σ R) : Par σ R :=
  match (s.requests i).phase with
  | .waiting =>
    match (s.requests i).guard with
    | .reading =>
      if s.writer.isNone then { s.move i (.inside (s.requests i).work) with readers := i :: s.readers } else s
    | .writing => if s.writer.isNone then { s.move i .announced with writer := some i } else s
    | .none => s.move i (.inside (s.requests i).work)
  | .announced => if s.readers.isEmpty then s.move i (.inside (s.requests i).work) else s
  | .inside (.step g k) => { s.move i (.inside (k s.state)) with state := g s.state }
  | .inside (.done r) => { (s.move i (.finished r)).unlock i with order := s.order ++ [i] }
  | .finished _ => s

/-- the scheduler picks some requests, one after the other -/
def Par.picks (is : List Nat) (s : Par σ R) : Par σ R := is.foldl (fun s i => s.pick i) s

/-! ### The operations of the host -/

open Config

/-- The host with what it keeps of the gas schedule (`gasSchedule` of `vmHost` and of the metering context; `wasmer` is global in
the process). -/
structure Host (χ A : Type) where
  gas : HostGas
  st : St χ A

/-- the state of the virtual machine, with the schedule in force -/
def Host.view {χ A : Type} (h : Host χ A) : St χ A := { h.st with met := { h.st.met with sched := h.gas.costs.schedule } }

/-- an operation of the host -/
inductive HostOp where
  | run (tx : Tx)
  | change (m : ScheduleMap)

/-- An operation that is alone. `E` depends on the prices of instructions that are set in Wasmer. -/
def HostOp.apply {χ A : Type} (E : List UInt64 → Env χ A) (n : Nat) (D : Decoder) (op : HostOp) (h : Host χ A) :
    Option RunResult × Host χ A :=
  match op with
  | .run tx => (some (runTx (E h.gas.wasmer) n tx h.view).1, { h with st := (runTx (E h.gas.wasmer) n tx h.view).2 })
  | .change m => (none, { h with gas := gasScheduleChange D m h.gas })

/-- the lock of an operation -/
def HostOp.guard : HostOp → Guard
  | .run _ => .reading
  | .change _ => .writing

/-- `GasScheduleChange` (308-318), step by step. -/
def changeSteps {χ A : Type} (D : Decoder) (m : ScheduleMap) : Act (Host χ A) (Option RunResult) :=
  .step (fun h => { h with gas := { h.gas with stored := m } }) fun _ =>
    match createGasConfig D m with
    | .error _ => .done none
    | .ok c =>
      .step (fun h => { h with gas := { h.gas with wasmer := opcodeCosts c } }) fun _ =>
        .step (fun h => { h with gas := setGasSchedule D m h.gas }) fun _ => .done none

/-- The deferred `Clean` (`execution.go` 19-25, 95-101, 146-152) and the end of an entry point, after its body. -/
def finishRun {χ A : Type} (tx : Tx) : Res VMOutput × St χ A → RunResult × St χ A
  | (.oof, t) => (none, t)
  | (.panic, t) => (some none, hostClean t)
  | (.ok out, t) =>
    match tx with
    | .create _ => (some (some out), hostClean t)
    | .call i =>
      (some (some out), if i.function ≠ upgradeName ∧ ((hostClean t).isWarm && out.returnMessage = allocationError) = true
        then (hostClean t).resetWarm else hostClean t)

/-- `RunSmartContractCreate` and `RunSmartContractCall` in a few steps: `InitState`; the contexts take over the input; the rest. -/
def txSteps {χ A : Type} (E : List UInt64 → Env χ A) (n : Nat) (tx : Tx) : Act (Host χ A) (Option RunResult) :=
  .step (fun h => { h with st := hostInit (E h.gas.wasmer) h.view }) fun _ =>
    match tx with
    | .create i =>
      let rest (h : Host χ A) := finishRun tx (createBody (E h.gas.wasmer) (execN (E h.gas.wasmer) n) i h.view)
      .step (fun h => { h with st := (rest h).2 }) fun h => .done (some (rest h).1)
    | .call i =>
      .step (fun h => { h with st := enterCallState i h.view }) fun before =>
        let rest (h : Host χ A) := finishRun tx
          (if i.function = upgradeName then upgradeRest (E h.gas.wasmer) (execN (E h.gas.wasmer) n) i h.view
           else callRest (E h.gas.wasmer) (execN (E h.gas.wasmer) n) (enterCallInput i before.view).gasProvided h.view)
        .step (fun h => { h with st := (rest h).2 }) fun h => .done (some (rest h).1)

/-- an operation, step by step -/
def HostOp.steps {χ A : Type} (E : List UInt64 → Env χ A) (n : Nat) (D : Decoder) : HostOp → Act (Host χ A) (Option RunResult)
  | .run tx => txSteps E n tx
  | .change m => changeSteps D m

end Arwen
