import Verif.State.Types
/-
The state of the virtual machine host, the environment it runs in, and the monad of its methods.
-/
namespace Arwen

/-! ### Contracts -/

/-- Behaviour of an exported WASM function, as an interaction tree. `A` is the type of API calls (function and arguments).
`burn` is metered local computation, `load`/`store` access linear memory, `trap` is any WASM trap. WASM execution is metered,
so every execution is finite and is described by a well-founded tree. -/
inductive Prog (A : Type) where
  | ret : Prog A
  | trap : Prog A
  | burn (n : UInt64) (k : Prog A) : Prog A
  | call (a : A) (k : Int64 → Prog A) : Prog A
  | load (off len : Nat) (k : Bytes → Prog A) : Prog A
  | store (off : Nat) (bs : Bytes) (k : Prog A) : Prog A

/-- What the host sees of a compiled module (`wasmer.InstanceHandler`): exports with their code and signature
(input and output arity), imports, memory. A name in `exports` without a signature (a non-function export) has `none`. -/
structure WasmModule (A : Type) where
  exports : List (Bytes × Prog A)
  signature : Bytes → Option (Nat × Nat)
  imports : Bytes → Bool
  hasMemory : Bool
  initMem : Bytes

/-- exported function by name -/
def WasmModule.fn {A : Type} (m : WasmModule A) (name : Bytes) : Option (Prog A) :=
  (m.exports.find? (fun p => p.1 = name)).map Prod.snd

/-- A Wasmer instance. Instances are compared by pointer in Go; here they live in a heap under numeric identities.
`addr` records the contract address the instance was made for, `newCode` that it was made for code being deployed, `destroyed` how
often it was destroyed (not fields in Go; used in statements only). -/
structure Inst (A : Type) where
  mod : WasmModule A
  points : UInt64 := 0
  limit : UInt64 := 0
  bp : Breakpoint := .none
  mem : Bytes := []
  destroyed : Nat := 0
  addr : Addr := []
  newCode : Bool := false

/-- the instance was destroyed -/
def Inst.cleaned {A : Type} (x : Inst A) : Bool := x.destroyed != 0

/-- `Clean`, `wasmer/instance.go` 240-248: there is no check whether the instance was destroyed before -/
def Inst.clean {A : Type} (x : Inst A) : Inst A := { x with destroyed := x.destroyed + 1 }

/-! ### Contexts -/

/-- `arwen/contexts/bigint.go` 7-12. Stacks are lists with the top first. -/
structure BigCtx where
  vals : AMap Int32 Int := AMap.empty
  stack : List (AMap Int32 Int) := []
  deriving DecidableEq, Repr, Inhabited

/-- `arwen/contexts/storage.go` 16-23 (the fields that change). -/
structure StoCtx where
  addr : Addr := []
  stack : List Addr := []
  protect : Bool := true
  deriving DecidableEq, Repr, Inhabited

/-- `arwen/contexts/output.go` 17-22. -/
structure OutCtx where
  cur : VMOutput := {}
  stack : List VMOutput := []
  codeUpdates : List Addr := []
  deriving DecidableEq, Repr, Inhabited

/-- the part of `meteringContext` that `PushState` saves (`arwen/contexts/metering.go` 70-79) -/
structure MeterCore where
  initialGasProvided : UInt64 := 0
  initialCost : UInt64 := 0
  gasForExecution : UInt64 := 0
  gasUsedByAccounts : AMap Addr UInt64 := AMap.empty
  deriving DecidableEq, Repr, Inhabited

/-- `arwen/contexts/metering.go` 15-24. -/
structure MeterCtx where
  sched : GasSchedule
  cur : MeterCore := {}
  stack : List MeterCore := []

/-- the part of `runtimeContext` that `PushState` saves (`arwen/contexts/runtime.go` 323-332) -/
structure RtCore where
  vmInput : VMInput := {}
  scAddress : Addr := []
  callFunction : Bytes := []
  readOnly : Bool := false
  asyncCallInfo : Option AsyncCallInfo := none
  asyncContextInfo : AsyncContextInfo := {}
  deriving DecidableEq, Repr, Inhabited

/-- `arwen/contexts/runtime.go` 22-51; the list of wrapped errors (only logged) is omitted. -/
structure RtCtx where
  cur : RtCore := {}
  stack : List RtCore := []
  codeSize : UInt64 := 0
  verifyCode : Bool := false
  instance_ : Option Nat := none
  instanceStack : List (Option Nat) := []
  warmAddress : Option Addr := none
  warmInstance : Option Nat := none
  deriving DecidableEq, Repr, Inhabited

/-- the five feature flags (`arwen/host/arwen.go` 50-64) -/
structure Flags where
  v2 : Bool := true
  aot : Bool := true
  dynGasLock : Bool := true
  v3 : Bool := true
  esdt : Bool := true
  deriving DecidableEq, Repr, Inhabited

/-- The whole host. `world` is the node's state behind the blockchain hook. -/
structure St (χ A : Type) where
  world : χ
  flags : Flags
  big : BigCtx
  sto : StoCtx
  out : OutCtx
  met : MeterCtx
  rt : RtCtx
  bcStack : List Int
  insts : Nat → Inst A
  nextInst : Nat

/-! ### Environment -/

/-- `vmcommon.UserAccountHandler`, with the account's code. -/
structure UserAcct where
  balance : Int := 0
  nonce : UInt64 := 0
  codeHash : Bytes := []
  codeMetadata : Bytes := []
  owner : Addr := []
  code : Bytes := []
  deriving DecidableEq, Repr, Inhabited

/-- `esdt.ESDigitalToken` with its optional metadata. -/
structure EsdtMeta where
  name : Bytes
  creator : Bytes
  royalties : UInt32
  hash : Bytes
  uris : List Bytes
  attributes : Bytes
  deriving DecidableEq, Repr, Inhabited
structure EsdtToken where
  value : Int
  properties : Bytes
  tokenMeta : Option EsdtMeta
  deriving DecidableEq, Repr, Inhabited

/-- `vmcommon.BlockchainHook`: the node, as arbitrary functions over its state. -/
structure Hook (χ : Type) where
  newAddress : χ → Addr → UInt64 → Bytes → Except Err Addr
  userAccount : χ → Addr → Except Err (Option UserAcct)
  storageData : χ → Addr → Bytes → Bytes
  /-- `none` if it panics -/
  blockhash : χ → UInt64 → Option (Except Err Bytes)
  processBuiltIn : χ → CallInput → Except Err BuiltinOutput × χ
  isPayable : χ → Addr → Except Err Bool
  isSmartContract : χ → Addr → Bool
  shardOf : χ → Addr → UInt32
  snapshot : χ → Int
  revert : χ → Int → χ
  compiledCode : χ → Bytes → Option Bytes
  saveCompiled : χ → Bytes → Bytes → χ
  esdtToken : χ → Addr → Bytes → UInt64 → Except Err EsdtToken
  stateRootHash : χ → Bytes
  currentEpoch : χ → UInt32
  currentNonce : χ → UInt64
  currentRound : χ → UInt64
  currentTimeStamp : χ → UInt64
  /-- the seed of the current block; `none` stands for a hook that panics, as that of the tests does if a block has no seed (`World/Mock.lean`) -/
  currentRandomSeed : χ → Option Bytes
  lastEpoch : χ → UInt32
  lastNonce : χ → UInt64
  lastRound : χ → UInt64
  lastTimeStamp : χ → UInt64
  lastRandomSeed : χ → Option Bytes

/-- Wasmer: compilation and the compiled-code format. `growOk n` says whether memory of `n` bytes may grow by a page. -/
structure Wasmer (A : Type) where
  compile : Bytes → Except Err (WasmModule A)
  cacheOf : Bytes → Except Err Bytes
  fromCompiled : Bytes → Except Err (WasmModule A)
  growOk : Nat → Bool

/-- Cryptographic functions (`crypto/`), arbitrary. -/
structure CryptoFns where
  sha256 : Bytes → Except Err Bytes
  keccak256 : Bytes → Except Err Bytes
  ripemd160 : Bytes → Except Err Bytes
  verifyBLS : Bytes → Bytes → Bytes → Bool
  verifyEd25519 : Bytes → Bytes → Bytes → Bool
  verifySecp256k1 : Bytes → Bytes → Bytes → Bool

/-- Outcome of a host method: a value, a Go panic, or (in the model only) exhaustion of the recursion fuel. -/
inductive Res (α : Type) where
  | ok (a : α) | panic | oof
  deriving DecidableEq, Repr, Inhabited

/-- Methods of the host: they change the state and may panic. A panic keeps the state reached (Go `recover`). -/
def M (χ A α : Type) := St χ A → Res α × St χ A

namespace M
variable {χ A α β : Type}

@[inline] def pure (a : α) : M χ A α := fun s => (.ok a, s)
@[inline] def bind (m : M χ A α) (f : α → M χ A β) : M χ A β := fun s =>
  match m s with
  | (.ok a, s') => f a s'
  | (.panic, s') => (.panic, s')
  | (.oof, s') => (.oof, s')

instance : Monad (M χ A) where
  pure := M.pure
  bind := M.bind

/-- a Go panic -/
def panic : M χ A α := fun s => (.panic, s)
/-- fuel exhausted (model only) -/
def oof : M χ A α := fun s => (.oof, s)
def get : M χ A (St χ A) := fun s => (.ok s, s)
def set (s' : St χ A) : M χ A Unit := fun _ => (.ok (), s')
def modify (f : St χ A → St χ A) : M χ A Unit := fun s => (.ok (), f s)
/-- a state change with an answer that cannot panic -/
def lift (f : St χ A → α × St χ A) : M χ A α := fun s => (.ok (f s).1, (f s).2)
/-- read-only access -/
def gets (f : St χ A → α) : M χ A α := fun s => (.ok (f s), s)

/-- Go `defer`: `fin` runs after `m` also when `m` panics (then with no value), and the panic goes on. -/
def deferred (m : M χ A α) (fin : Option α → M χ A β) : M χ A β := fun s =>
  match m s with
  | (.ok a, s') => fin (some a) s'
  | (.panic, s') =>
    match fin none s' with
    | (.oof, s'') => (.oof, s'')
    | (_, s'') => (.panic, s'')
  | (.oof, s') => (.oof, s')

theorem pure_eq (a : α) : (Pure.pure a : M χ A α) = M.pure a := rfl
theorem bind_eq (m : M χ A α) (f : α → M χ A β) : (m >>= f) = M.bind m f := rfl
end M

/-! ### API programs -/

/-- Commands with an effect on the host, the vocabulary of the API functions. -/
inductive Cmd : Type where
  | useGas (n : UInt64)
  | memStore (off : Int32) (data : Bytes)
  | failExecution (e : Err)
  | signalUserError (msg : Bytes)
  | executeAsyncCall (addr : Addr) (data value : Bytes)
  | addAsyncContextCall (ctxId : Bytes) (c : AsyncGeneratedCall)
  | setAsyncContextCallback (ctxId : Bytes) (callback : Bytes)
  | getBalance (addr : Addr)
  | getCode (addr : Addr)
  | getStorage (key : Bytes)
  | getStorageUnmetered (key : Bytes)
  | getStorageFromAddress (addr : Addr) (key : Bytes)
  | setStorage (key value : Bytes)
  | setTimeLock (key value : Bytes)
  | finish (data : Bytes)
  | writeLog (addr : Addr) (topics : List Bytes) (data : Bytes)
  | transfer (dest sender : Addr) (gasLimit gasLocked : UInt64) (value : Int) (data : Bytes) (callType : CallType)
  | transferESDT (dest sender : Addr) (token : Bytes) (nonce : UInt64) (value : Int) (callInput : Option CallInput)
  | bigGet (h : Int32)
  | bigSet (h : Int32) (v : Int)
  | bigPut (v : Int64)
  | executeOnDest (i : CallInput)
  | executeOnSame (i : CallInput)
  | executeReadOnly (i : CallInput)
  | createContract (i : CreateInput)
  | revertSnapshot (n : Int)
  | outOfGas
  deriving DecidableEq, Repr

/-- What each command answers. -/
def Cmd.Resp : Cmd → Type
  | .memStore _ _ => Option Err
  | .executeAsyncCall _ _ _ => Option Err
  | .getBalance _ => Int
  | .getCode _ => Except Err Bytes
  | .getStorage _ => Bytes
  | .getStorageUnmetered _ => Bytes
  | .getStorageFromAddress _ _ => Bytes
  | .setStorage _ _ => StorageStatus × Option Err
  | .setTimeLock _ _ => StorageStatus × Option Err
  | .setAsyncContextCallback _ _ => Option Err
  | .transfer .. => Option Err
  | .transferESDT .. => Except Err UInt64
  | .bigGet _ => Int
  | .bigPut _ => Int32
  | .executeOnDest _ => Option Err
  | .executeOnSame _ => Option Err
  | .executeReadOnly _ => Option Err
  | .createContract _ => Except Err Addr
  | _ => Unit

/-- An API function: a program that reads the host state, issues commands, or panics (Go index out of range etc.). -/
inductive Free (χ A : Type) (α : Type) where
  | pure (a : α) : Free χ A α
  | ask (k : St χ A → Free χ A α) : Free χ A α
  | op (c : Cmd) (k : c.Resp → Free χ A α) : Free χ A α
  | panic : Free χ A α

namespace Free
variable {χ A α β : Type}
def bind : Free χ A α → (α → Free χ A β) → Free χ A β
  | .pure a, f => f a
  | .ask k, f => .ask (fun s => (k s).bind f)
  | .op c k, f => .op c (fun r => (k r).bind f)
  | .panic, _ => .panic
instance : Monad (Free χ A) where
  pure := Free.pure
  bind := Free.bind
/-- read the state -/
def asks (f : St χ A → α) : Free χ A α := .ask (fun s => .pure (f s))
/-- issue one command -/
def cmd (c : Cmd) : Free χ A c.Resp := .op c .pure
end Free

/-- Everything fixed for a host: node, Wasmer, crypto, configuration, the API. -/
structure Env (χ A : Type) where
  hook : Hook χ
  wasm : Wasmer A
  crypto : CryptoFns
  /-- the host API offered to contracts -/
  api : A → Free χ A Int64
  /-- `host.IsBuiltinFunctionName` (`arwen/host/execution.go` 434-442) -/
  isBuiltin : Bytes → Bool
  /-- names of the API functions, reserved for exports (`contexts/reservedFunctions.go` 27-29) -/
  apiNames : Bytes → Bool
  /-- text of an error (`err.Error()`) -/
  errText : Err → Bytes
  /-- text of a return code (`ReturnCode.String()`) -/
  retCodeText : ReturnCode → Bytes
  /-- `json.Marshal`/`json.Unmarshal` of the pending asynchronous calls -/
  encodeAsync : AsyncContextInfo → Except Err Bytes
  decodeAsync : Bytes → Except Err AsyncContextInfo
  vmType : Bytes
  elrondPrefix : Bytes
  /-- `vmcommon.ElrondProtectedKeyPrefix + vmcommon.ESDTNFTLatestNonceIdentifier` -/
  nftNoncePrefix : Bytes
  useWarm : Bool
  maxInstances : Nat
  v2Epoch : UInt32
  aotEpoch : UInt32
  dynEpoch : UInt32
  v3Epoch : UInt32
  esdtEpoch : UInt32

end Arwen
