import Verif.Ipc.Messages
/-
Model of the two message loops and of what they are used for: `ipc/common/messenger.go`, `ipc/nodepart/part.go`,
`ipc/nodepart/messenger.go`, `ipc/nodepart/blockchainRepliers.go`, `ipc/nodepart/arwenDriver.go`, `ipc/arwenpart/part.go`,
`ipc/arwenpart/messenger.go`, `ipc/arwenpart/blockchainGateway.go`. The pipes are trusted to deliver messages (`Ipc/Pipe.lean`);
starting and killing processes is in `Ipc/Driver.lean`.
-/
namespace Arwen.Ipc

/-! ### Messengers -/

/-- `Messenger` (`ipc/common/messenger.go` 14-19). -/
structure Messenger where
  nonce : UInt32 := 0
  deriving DecidableEq, Repr, Inhabited

/-- `Send` (`messenger.go` 40-46). -/
def Messenger.send (r : Messenger) (m : Msg) : Messenger × Msg := ({ nonce := r.nonce + 1 }, { m with nonce := r.nonce + 1 })

/-- `Receive` (`messenger.go` 49-64); `none` is `ErrInvalidMessageNonce`. -/
def Messenger.receive (r : Messenger) (m : Msg) : Option Messenger :=
  if m.nonce ≠ r.nonce + 1 then none else some { nonce := m.nonce }

/-- `ResetDialogue` (`messenger.go` 72-74). -/
def Messenger.reset (_ : Messenger) : Messenger := { nonce := 0 }

/-! ### The node -/

/-- The node: its blockchain hook, over its state, and what the runtime decides. The hook's functions return a result and an error,
given by its text. -/
structure Node (W : Type) where
  hook : (f : HookFn) → Args f → W → (Result f × Option Bytes) × W
  ord : Orders
  /-- `fmt.Errorf` on a text without arguments -/
  errorf : Bytes → Bytes
  /-- `config.MaxLoopTime`, in milliseconds -/
  maxLoopTime : Int
  /-- how long the node waits for the n-th message of a loop, in milliseconds -/
  clock : Nat → Nat

/-- why a loop of the node ends without a response -/
inductive LoopErr
  | nonce | timeout | timeExpired | badMessage | arwenGone | nodePanic
  deriving DecidableEq, Repr, Inhabited

/-- Both processes while they talk. -/
structure Sys (W : Type) where
  node : Messenger := {}
  arwen : Messenger := {}
  world : W
  /-- `remainingMilliseconds` (`nodepart/part.go` 98) -/
  remaining : Int := 0
  /-- messages received by the node in this loop -/
  received : Nat := 0

variable {W : Type}

/-- Receiving in the node's loop (`nodepart/messenger.go` 44-53, `nodepart/part.go` 101-109). A limit of 0 is no limit
(`receiver.go` 28). -/
def nodeReceive (N : Node W) (m : Msg) (s : Sys W) : Except LoopErr (Sys W) :=
  if 0 < s.remaining ∧ s.remaining < N.clock s.received then .error .timeout
  else
    match s.node.receive m with
    | none => .error .nonce
    | some node =>
      if s.remaining - N.clock s.received < 0 then .error .timeExpired
      else .ok { s with node := node, remaining := s.remaining - N.clock s.received, received := s.received + 1 }

/-- functions without arguments -/
def noArgs : (f : HookFn) → Option (Args f)
  | .lastNonce | .lastRound | .lastTimeStamp | .lastRandomSeed | .lastEpoch | .getStateRootHash | .currentNonce | .currentRound
  | .currentTimeStamp | .currentRandomSeed | .currentEpoch | .getBuiltinFunctionNames | .clearCompiledCodes | .isInterfaceNil
  | .getSnapshot => some ()
  | _ => none

/-- the arguments that a replier takes from a request: repliers of functions with arguments assert the type of the request, the
others do not look at it -/
def argsOf (f : HookFn) : Body → Option (Args f)
  | .request g a => if h : g = f then some (h ▸ a) else noArgs f
  | _ => noArgs f

/-- A replier of the node (`nodepart/blockchainRepliers.go`); `none` if the type assertion fails. -/
def reply (N : Node W) (f : HookFn) (b : Body) (w : W) : Option (Msg × W) :=
  match argsOf f b with
  | none => none
  | some a =>
    let q := N.hook f a w
    some ({ kind := f.replyKind, error := if f.fallible then setError q.1.2 else [],
            body := .response f (wire N.ord q.1.2.isSome f q.1.1) }, q.2)

/-- `replyToHookCallRequest` (`nodepart/part.go` 137-144) up to the sending. -/
def nodeReply (N : Node W) (m : Msg) (w : W) : Option (Msg × W) :=
  match nodeReplier m.kind with
  | none => some (undefinedMsg, w)
  | some f => reply N f m.body w

/-! ### The Arwen process -/

/-- What the virtual machine does when it is run: it asks the blockchain hook, again and again, and then has a result. -/
inductive IProg (R : Type) where
  | ret (r : R)
  | ask (f : HookFn) (a : Args f) (k : Except Bytes (Result f) → IProg R)

/-- how a run of the virtual machine ends, seen from the node -/
inductive Exit (R : Type) where
  /-- the virtual machine has a result -/
  | done (r : R)
  /-- the node took a message of the hook for the response -/
  | ended (m : Msg)
  /-- the node's loop failed -/
  | failed (e : LoopErr)

/-- results of the gateway when it fails: zero values -/
def zero : (f : HookFn) → Result f
  | .newAddress | .getStorageData | .getBlockhash | .lastRandomSeed | .getStateRootHash | .currentRandomSeed | .getCode => []
  | .lastNonce | .lastRound | .lastTimeStamp | .currentNonce | .currentRound | .currentTimeStamp => 0
  | .lastEpoch | .currentEpoch | .getShardOfAddress => 0
  | .processBuiltInFunction => none
  | .getBuiltinFunctionNames => []
  | .getAllState => AMap.empty
  | .getUserAccount => none
  | .isSmartContract | .isPayable | .isInterfaceNil => false
  | .getCompiledCode => (false, [])
  | .getESDTToken => none
  | .getSnapshot => 0
  | .saveCompiledCode | .clearCompiledCodes | .revertToSnapshot => ()

/-- what the gateway returns when it got no proper response -/
def gatewayFails (f : HookFn) (text : Bytes) : Except Bytes (Result f) := if f.fallible then .error text else .ok (zero f)

/-- text of `ErrCannotReceiveHookCallResponse` (`ipc/common/errors.go` 66) -/
def errCannotReceive : Bytes := "critical error: cannot receive hook call response".toUTF8.toList

/-- text of `ErrBadHookResponseFromNode` (`ipc/common/errors.go` 69) -/
def errBadResponse : Bytes := "critical error: bad hook response from node".toUTF8.toList

/-- What the gateway makes of a response (`arwenpart/blockchainGateway.go`); `none` if the process panics. `RevertToSnapshot`
(495-508) does not look at the error in the response. -/
def gatewayReads (errorf : Bytes → Bytes) (f : HookFn) (m : Msg) : Option (Except Bytes (Result f)) :=
  if m.kind ≠ f.responseKind then some (gatewayFails f errBadResponse)
  else
    match m.body with
    | .response g r =>
      if h : g = f then
        match unwire f (h ▸ r) with
        | none => none
        | some r =>
          if f.fallible ∧ f ≠ .revertToSnapshot then
            match getError errorf m.error with
            | none => some (.ok r)
            | some text => some (.error text)
          else some (.ok r)
      else none
    | _ => none

/-- One question of the virtual machine: the gateway sends a request (`arwenpart/messenger.go` 45-59), the node's loop receives it,
replies if it is a hook call (`nodepart/part.go` 97-135), and the gateway reads the response. -/
def askNode (N : Node W) (f : HookFn) (a : Args f) (s : Sys W) : Exit (Except Bytes (Result f)) × Sys W :=
  match f.requestKind with
  | none => (.done (.ok (zero f)), s)
  | some kind =>
    let (arwen, m) := s.arwen.send { kind := kind, body := .request f a }
    match nodeReceive N m.arrived { s with arwen := arwen } with
    | .error e => (.failed e, { s with arwen := arwen })
    | .ok s =>
      if isHookCall m.arrived.kind then
        match nodeReply N m.arrived s.world with
        | none => (.failed .nodePanic, s)
        | some (resp, w) =>
          let (node, resp) := s.node.send resp
          let s := { s with node := node, world := w }
          match s.arwen.receive resp.arrived with
          | none => (.done (gatewayFails f errCannotReceive), s)
          | some arwen =>
            match gatewayReads N.errorf f resp.arrived with
            | none => (.failed .arwenGone, { s with arwen := arwen })
            | some ans => (.done ans, { s with arwen := arwen })
      else if endsLoop m.arrived.kind then (.ended m.arrived, s)
      else (.failed .badMessage, s)

/-- a run of the virtual machine, with its hook calls over the pipe -/
def runIpc {R : Type} (N : Node W) : IProg R → Sys W → Exit R × Sys W
  | .ret r, s => (.done r, s)
  | .ask f a k, s =>
    match askNode N f a s with
    | (.done ans, s) => runIpc N (k ans) s
    | (.ended m, s) => (.ended m, s)
    | (.failed e, s) => (.failed e, s)

/-- The virtual machine as the Arwen process uses it, over its own state `H`; results are an output, unless nil, and an error. -/
structure Machine (H : Type) where
  create : CreateInput → H → IProg ((Option RawOutput × Option Bytes) × H)
  call : CallInput → H → IProg ((Option RawOutput × Option Bytes) × H)
  gasChange : GasTable → H → H
  version : Bytes

/-- `NewMessageContractResponse` (`messagesContracts.go` 42-48). -/
def contractResponse (ord : Orders) (r : Option RawOutput × Option Bytes) : Msg :=
  { kind := .contractResponse, error := setError r.2, body := .contractResponse (SerOutput.new ord r.1) }

/-- `replyToNodeRequest` (`arwenpart/part.go` 50-55, 97-129): `none` if the process panics. A stop request ends the process too
(81-83). -/
def arwenReply {H : Type} (ord : Orders) (vm : Machine H) (m : Msg) (h : H) : Option (IProg (Msg × H)) :=
  match m.kind with
  | .contractDeployRequest =>
    match m.body with
    | .deployRequest i => some (mapProg (fun r => (contractResponse ord r.1, r.2)) (vm.create i h))
    | _ => none
  | .contractCallRequest =>
    match m.body with
    | .callRequest i => some (mapProg (fun r => (contractResponse ord r.1, r.2)) (vm.call i h))
    | _ => none
  | .diagnoseWaitRequest =>
    match m.body with
    | .waitRequest _ => some (.ret ({ kind := .diagnoseWaitResponse, body := .waitResponse }, h))
    | _ => none
  | .versionRequest => some (.ret ({ kind := .versionResponse, body := .versionResponse vm.version }, h))
  | .gasScheduleChangeRequest =>
    match m.body with
    | .gasRequest g => some (.ret ({ kind := .gasScheduleChangeResponse, body := .undefined }, vm.gasChange g h))
    | _ => none
  | .stop => none
  | _ => some (.ret (undefinedMsg, h))
where
  /-- the same run with another form of its result -/
  mapProg {R S : Type} (g : R → S) : IProg R → IProg S
    | .ret r => .ret (g r)
    | .ask f a k => .ask f a fun x => mapProg g (k x)

/-- One request of the node and all that follows: `StartLoop` of the node (`nodepart/part.go` 77-92) and one round of the loop in
the Arwen process (`arwenpart/part.go` 75-95). Both messengers are reset at the end. If the Arwen process ends, the node's read
fails. -/
def startLoop {H : Type} (N : Node W) (vm : Machine H) (request : Msg) (s : Sys W) (h : H) : Except LoopErr Msg × Sys W × H :=
  let (node, m) := s.node.send request
  let s := { s with node := node, remaining := N.maxLoopTime, received := 0 }
  match s.arwen.receive m.arrived with
  | none => (.error .arwenGone, { s with node := s.node.reset }, h)
  | some arwen =>
    let s := { s with arwen := arwen }
    match arwenReply N.ord vm m.arrived h with
    | none => (.error .arwenGone, { s with node := s.node.reset }, h)
    | some p =>
      match runIpc N p s with
      | (.failed e, s) => (.error e, { s with node := s.node.reset }, h)
      | (.ended m, s) => (.ok m, { s with node := s.node.reset }, h)
      | (.done (resp, h), s) =>
        let (arwen, resp) := s.arwen.send resp
        let s := { s with arwen := arwen.reset }
        match nodeReceive N resp.arrived s with
        | .error e => (.error e, { s with node := s.node.reset }, h)
        | .ok s =>
          if isHookCall resp.arrived.kind then (.error .badMessage, { s with node := s.node.reset }, h)
          else if endsLoop resp.arrived.kind then (.ok resp.arrived, { s with node := s.node.reset }, h)
          else (.error .badMessage, { s with node := s.node.reset }, h)

/-- what the driver returns: an output, an error of the host, or a critical error -/
inductive Driven where
  | output (o : RawOutput)
  | error (text : Bytes)
  | critical (e : LoopErr)

/-- The end of `RunSmartContractCreate` and `RunSmartContractCall` (`arwenDriver.go` 282-296, 312-326). -/
def driverReads (N : Node W) : Except LoopErr Msg → Driven
  | .error e => .critical e
  | .ok m =>
    match m.body with
    | .contractResponse o =>
      match getError N.errorf m.error with
      | none => .output o.convert
      | some text => .error text
    | _ => .critical .nodePanic

/-- `RunSmartContractCall` (`arwenDriver.go` 299-326). -/
def driverCall {H : Type} (N : Node W) (vm : Machine H) (i : CallInput) (s : Sys W) (h : H) : Driven × Sys W × H :=
  let r := startLoop N vm { kind := .contractCallRequest, body := .callRequest i } s h
  (driverReads N r.1, r.2)

/-- `RunSmartContractCreate` (`arwenDriver.go` 269-296). -/
def driverCreate {H : Type} (N : Node W) (vm : Machine H) (i : CreateInput) (s : Sys W) (h : H) : Driven × Sys W × H :=
  let r := startLoop N vm { kind := .contractDeployRequest, body := .deployRequest i } s h
  (driverReads N r.1, r.2)

/-- `GasScheduleChange` (`arwenDriver.go` 242-266): whether the Arwen process took the schedule. -/
def driverGasChange {H : Type} (N : Node W) (vm : Machine H) (g : GasTable) (s : Sys W) (h : H) : Option LoopErr × Sys W × H :=
  let r := startLoop N vm { kind := .gasScheduleChangeRequest, body := .gasRequest g } s h
  ((match r.1 with | .error e => some e | .ok _ => none), r.2)

end Arwen.Ipc
