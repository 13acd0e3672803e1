import Verif.Eei.Api
/-
A small concrete node, gas schedule and host, used in examples (hypotheses can be met) and in the witnesses of the
theorems that show a violation. Nothing here models code of /repo.
-/
namespace Arwen.Fixture
open Arwen

/-- a readable address of 32 bytes -/
def addr (n : UInt8) : Addr := List.replicate 31 0 ++ [n]

/-- accounts, storage and compiled code of a node -/
structure Core where
  accts : AMap Addr UserAcct := AMap.empty
  storage : AMap (Addr × Bytes) Bytes := AMap.empty
  compiled : AMap Bytes Bytes := AMap.empty
  log : List CallInput := []
  deriving DecidableEq, Inhabited

/-- a journal of states, the current one first -/
abbrev World := List Core
def World.cur (w : World) : Core := w.headD {}

/-- The node: addresses of contracts end in a byte ≥ 100; everything is in one shard unless the first byte differs;
all accounts are payable; new addresses are made of the creator's last byte and the nonce. -/
def hook : Hook World where
  newAddress := fun _ a n _ => .ok (List.replicate 30 1 ++ [a.getLast?.getD 0, 100 + n.toUInt8])
  userAccount := fun w a => .ok (World.cur w |>.accts.get? a)
  storageData := fun w a k => ((World.cur w).storage.get? (a, k)).getD []
  blockhash := fun _ _ => some (.ok (List.replicate 32 7))
  processBuiltIn := fun w i =>
    (.ok { out := { gasRemaining := 0 } }, { World.cur w with log := i :: (World.cur w).log } :: w)
  isPayable := fun _ _ => .ok true
  isSmartContract := fun _ a => decide (100 ≤ a.getLast?.getD 0)
  shardOf := fun _ a => (a.headD 0).toUInt32
  snapshot := fun w => w.length
  revert := fun w n => w.drop (w.length - n.toNat)
  compiledCode := fun w h => (World.cur w).compiled.get? h
  saveCompiled := fun w h c => { World.cur w with compiled := (World.cur w).compiled.insert h c } :: w
  esdtToken := fun _ _ _ _ => .ok { value := 0, properties := [], tokenMeta := none }
  stateRootHash := fun _ => List.replicate 32 9
  currentEpoch := fun _ => 1
  currentNonce := fun _ => 2
  currentRound := fun _ => 3
  currentTimeStamp := fun _ => 4
  currentRandomSeed := fun _ => some (List.replicate 48 5)
  lastEpoch := fun _ => 1
  lastNonce := fun _ => 1
  lastRound := fun _ => 2
  lastTimeStamp := fun _ => 3
  lastRandomSeed := fun _ => some (List.replicate 48 4)

/-- all prices 1 -/
def sched : GasSchedule where
  storePerByte := 1
  releasePerByte := 1
  dataCopyPerByte := 1
  persistPerByte := 1
  compilePerByte := 1
  aotPreparePerByte := 1
  getCode := 1
  api := fun _ => 1

/-- a module with the given functions, all without parameters and results -/
def mod (fns : List (Bytes × Prog EeiCall)) : WasmModule EeiCall where
  exports := fns
  signature := fun n => if fns.any (fun p => p.1 = n) then some (0, 0) else none
  imports := fun _ => false
  hasMemory := true
  initMem := List.replicate 512 0

/-- the environment with the given contracts; the compiled form of a code is the code itself -/
def envWith (mods : List (Bytes × WasmModule EeiCall)) (warm : Bool := false) : Env World EeiCall :=
  Env.real {
    hook := hook
    wasm := {
      compile := fun c => match mods.find? (fun p => p.1 = c) with | some p => .ok p.2 | none => .error (.wasm 1)
      cacheOf := fun c => .ok c
      fromCompiled := fun c => match mods.find? (fun p => p.1 = c) with | some p => .ok p.2 | none => .error (.wasm 1)
      growOk := fun n => n < 1048576 }
    crypto := {
      sha256 := fun b => .ok (b ++ [1])
      keccak256 := fun b => .ok (b ++ [2])
      ripemd160 := fun b => .ok (b ++ [3])
      verifyBLS := fun _ _ _ => true
      verifyEd25519 := fun _ _ _ => true
      verifySecp256k1 := fun _ _ _ => true }
    api := fun _ => .panic
    isBuiltin := fun n => n = esdtTransferName || n = esdtNFTTransferName || n = [66, 73]
    apiNames := fun n => n = [102, 105, 110, 105, 115, 104]
    errText := fun _ => [101]
    retCodeText := fun c => [UInt8.ofNat c.toNat]
    encodeAsync := fun _ => .ok [1]
    decodeAsync := fun _ => .ok {}
    vmType := [5, 0]
    elrondPrefix := [69, 76, 82, 79, 78, 68]
    nftNoncePrefix := [69, 76, 82, 79, 78, 68, 110, 111, 110, 99, 101]
    useWarm := warm
    maxInstances := 10
    v2Epoch := 0
    aotEpoch := 0
    dynEpoch := 0
    v3Epoch := 0
    esdtEpoch := 0 }

/-- a contract account with its code; the code hash is the code -/
def contract (code : Bytes) (balance : Int := 0) (owner : Addr := addr 1) (md : Bytes := [7, 0]) : UserAcct :=
  { balance := balance, nonce := 0, codeHash := code, codeMetadata := md, owner := owner, code := code }

/-- a fresh host over a node -/
def host (w : World) : St World EeiCall where
  world := w
  flags := {}
  big := {}
  sto := {}
  out := {}
  met := { sched := sched }
  rt := {}
  bcStack := []
  insts := fun _ => { mod := mod [] }
  nextInst := 0

/-- a host whose schedule locks 20000 gas for a callback -/
def hostLock (w : World) : St World EeiCall :=
  { host w with met := { sched := { sched with api := fun c => if c = .asyncCallbackGasLock then 20000 else 1 } } }

/-- a host that is running an instance with some memory and gas -/
def running (mem : Bytes := List.replicate 64 0) (gas : UInt64 := 1000) : St World EeiCall :=
  let s := host []
  { s with
    rt := { s.rt with instance_ := some 0, cur := { s.rt.cur with scAddress := addr 100 } }
    sto := { s.sto with addr := addr 100 }
    met := { s.met with cur := { s.met.cur with initialGasProvided := gas, gasForExecution := gas } }
    insts := fun _ => { mod := mod [], mem := mem, limit := gas, addr := addr 100 }
    nextInst := 1 }

/-- an environment without contracts -/
def env0 : Env World EeiCall := envWith []

/-- a call from an account -/
def callTx (caller recipient : Addr) (function : Bytes) (gas : UInt64 := 100000) (value : Int := 0) (args : List Bytes := []) : Tx :=
  .call { vm := { caller := caller, gasProvided := gas, callValue := value, args := args }, recipient := recipient, function := function }

/-! ### Small contracts -/

abbrev P := Prog EeiCall
/-- the function name `f` -/
def f : Bytes := [102]
def g : Bytes := [103]

/-- call another contract on its own context -/
def callDest (dst : Addr) (fn : Bytes) (gas : Int64) (k : P) : P :=
  .store 0 dst <| .store 64 fn <| .call (.executeOnDestContext gas 0 32 64 (Int32.ofNat fn.length) 0 0 0) fun _ => k
/-- call another contract on its own context with short arguments -/
def callDestArgs (dst : Addr) (fn : Bytes) (args : List Bytes) (gas : Int64) (k : P) : P :=
  .store 0 dst <| .store 64 fn <| .store 128 (args.flatMap (fun a => [UInt8.ofNat a.length, 0, 0, 0])) <|
    .store 192 args.flatten <|
    .call (.executeOnDestContext gas 0 32 64 (Int32.ofNat fn.length) (Int32.ofNat args.length) 128 192) fun _ => k
/-- call another contract on its own context with a value (one byte) -/
def payDest (dst : Addr) (fn : Bytes) (value : UInt8) (gas : Int64) (k : P) : P :=
  .store 0 dst <| .store 32 (List.replicate 31 0 ++ [value]) <| .store 64 fn <|
    .call (.executeOnDestContext gas 0 32 64 (Int32.ofNat fn.length) 0 0 0) fun _ => k
/-- asynchronous call, run when this contract ends; `callBack` is run afterwards -/
def async (dst : Addr) (data : Bytes) : P :=
  .store 0 dst <| .store 64 data <| .call (.asyncCall 0 32 64 (Int32.ofNat data.length)) fun _ => .ret
def callSame (dst : Addr) (fn : Bytes) (gas : Int64) (k : P) : P :=
  .store 0 dst <| .store 64 fn <| .call (.executeOnSameContext gas 0 32 64 (Int32.ofNat fn.length) 0 0 0) fun _ => k
def callReadOnly (dst : Addr) (fn : Bytes) (gas : Int64) (k : P) : P :=
  .store 0 dst <| .store 64 fn <| .call (.executeReadOnly gas 0 64 (Int32.ofNat fn.length) 0 0 0) fun _ => k
def create (code md : Bytes) (value : UInt8) (gas : Int64) (k : P) : P :=
  .store 32 (List.replicate 31 0 ++ [value]) <| .store 128 code <| .store 120 md <|
    .call (.createContract gas 32 128 120 (Int32.ofNat code.length) 300 0 0 0) fun _ => k
/-- the upgrade of another contract, run when this one ends -/
def upgrade (dst : Addr) (code md : Bytes) (gas : Int64) (k : P) : P :=
  .store 0 dst <| .store 128 code <| .store 120 md <|
    .call (.upgradeContract 0 gas 32 128 120 (Int32.ofNat code.length) 0 0 0) fun _ => k
def put (key value : Bytes) (k : P) : P :=
  .store 200 key <| .store 260 value <|
    .call (.storageStore 200 (Int32.ofNat key.length) 260 (Int32.ofNat value.length)) fun _ => k
def send (dst : Addr) (value : UInt8) (k : P) : P :=
  .store 0 dst <| .store 32 (List.replicate 31 0 ++ [value]) <| .call (.transferValue 0 32 64 0) fun _ => k
def log (data : Bytes) (k : P) : P :=
  .store 200 data <| .call (.writeLog 200 (Int32.ofNat data.length) 300 0) fun _ => k
def signal : P := .call (.signalError 0 1) fun _ => .ret

/-- a node with the given contracts, and account 1 with balance 1000 -/
def node (l : List (Addr × UserAcct)) : World :=
  [{ accts := (l.foldl (fun m p => m.insert p.1 p.2) AMap.empty).insert (addr 1) { balance := 1000 } }]

/-- the output of a transaction -/
def outputOf (r : RunResult × St World EeiCall) : VMOutput := (r.1.getD none).getD {}
def codeOf (r : RunResult × St World EeiCall) : Option ReturnCode := (r.1.getD none).map VMOutput.returnCode

end Arwen.Fixture
