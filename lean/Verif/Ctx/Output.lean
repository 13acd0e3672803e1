import Verif.State.Machine
/-
Model of `arwen/contexts/output.go`: accounts, merging, stack, logs (pure part).
-/
namespace Arwen

/-- `mergeStorageUpdates` and `mergeOutputAccounts` (`output.go` 554-607). -/
def mergeAcc (l r : OutAcc) : OutAcc where
  storage := AMap.mergeWith (fun _ x => x) l.storage r.storage
  balance := match r.balance with
    | some b => some b
    | none => l.balance
  balanceDelta := r.balanceDelta
  code := if r.code.length > 0 then r.code else l.code
  codeMetadata := if r.codeMetadata.length > 0 then r.codeMetadata else l.codeMetadata
  nonce := if r.nonce > l.nonce then r.nonce else l.nonce
  transfers := if r.transfers.length > l.transfers.length
    then l.transfers ++ r.transfers.drop l.transfers.length else l.transfers
  gasUsed := r.gasUsed
  deployer := match r.deployer with
    | some d => some d
    | none => l.deployer

/-- `mergeVMOutputs` (`output.go` 528-552). -/
def mergeOut (l r : VMOutput) : VMOutput where
  accounts := AMap.mergeWith (fun la ra => mergeAcc (la.getD {}) ra) l.accounts r.accounts
  logs := l.logs ++ r.logs
  returnData := l.returnData ++ r.returnData
  gasRemaining := r.gasRemaining
  gasRefund := r.gasRefund
  returnCode := r.returnCode
  returnMessage := r.returnMessage

/-- `AddToActiveState` (`output.go` 506-526). The right-hand output is changed in place and returned second. -/
def addToActive (l : VMOutput) (b : BuiltinOutput) : VMOutput × VMOutput :=
  let r := b.out
  let refund : Int := if b.refundNil then 0 else r.gasRefund + l.gasRefund
  let rAccounts : AMap Addr OutAcc := ⟨r.accounts.entries.map (fun p => (p.1,
      match l.accounts.get? p.1 with
      | none => p.2
      | some la => { p.2 with balanceDelta := p.2.balanceDelta + la.balanceDelta })),
    by simpa [List.map_map, Function.comp_def] using r.accounts.nodup⟩
  let lAccounts : AMap Addr OutAcc := ⟨l.accounts.entries.map (fun p => (p.1,
      match r.accounts.get? p.1 with
      | none => p.2
      | some ra => { p.2 with transfers := p.2.transfers ++ ra.transfers })),
    by simpa [List.map_map, Function.comp_def] using l.accounts.nodup⟩
  let r' := { r with gasRefund := refund, accounts := rAccounts }
  (mergeOut { l with accounts := lAccounts } r', r')

namespace OutCtx

/-- `InitState` (`output.go` 37-40). -/
def initState (c : OutCtx) : OutCtx := { c with cur := {}, codeUpdates := [] }
/-- `PushState` (`output.go` 68-72). -/
def push (c : OutCtx) : OutCtx := { c with stack := mergeOut {} c.cur :: c.stack }
/-- `PopSetActiveState` (`output.go` 75-84). -/
def popSet (c : OutCtx) : OutCtx :=
  match c.stack with
  | [] => c
  | p :: rest => { c with cur := p, stack := rest }
/-- `PopMergeActiveState` (`output.go` 91-103). -/
def popMerge (c : OutCtx) : OutCtx :=
  match c.stack with
  | [] => c
  | p :: rest => { c with cur := mergeOut {} (mergeOut p c.cur), stack := rest }
/-- `PopDiscard` (`output.go` 107-114). -/
def popDiscard (c : OutCtx) : OutCtx := { c with stack := c.stack.tail }
/-- `ClearStateStack` (`output.go` 117-119). -/
def clearStack (c : OutCtx) : OutCtx := { c with stack := [] }
/-- `CensorVMOutput` (`output.go` 125-134). -/
def censor (c : OutCtx) : OutCtx :=
  { c with cur := { c.cur with returnData := [], returnCode := .ok, returnMessage := [], gasRemaining := 0,
                               gasRefund := 0, logs := [] } }
/-- `GetOutputAccount` (`output.go` 139-149): the account and whether it is new, after creating it if missing. -/
def getAcc (c : OutCtx) (a : Addr) : OutAcc × Bool × OutCtx :=
  match c.cur.accounts.get? a with
  | some acc => (acc, false, c)
  | none => ({}, true, { c with cur := { c.cur with accounts := c.cur.accounts.insert a {} } })
/-- Writing fields of the account returned by `GetOutputAccount`. -/
def setAcc (c : OutCtx) (a : Addr) (acc : OutAcc) : OutCtx :=
  { c with cur := { c.cur with accounts := c.cur.accounts.insert a acc } }
/-- get-or-create, then change -/
def modAcc (c : OutCtx) (a : Addr) (f : OutAcc → OutAcc) : OutCtx :=
  c.setAcc a (f (c.getAcc a).1)
/-- `DeleteOutputAccount` (`output.go` 157-160). -/
def deleteAcc (c : OutCtx) (a : Addr) : OutCtx :=
  { c with cur := { c.cur with accounts := c.cur.accounts.erase a }, codeUpdates := c.codeUpdates.filter (· ≠ a) }
/-- `GetRefund` (`output.go` 163-165): the low 64 bits. -/
def getRefund (c : OutCtx) : UInt64 := UInt64.ofInt c.cur.gasRefund
/-- `SetRefund` (`output.go` 168-170): through a conversion to `int64`. -/
def setRefund (c : OutCtx) (refund : UInt64) : OutCtx :=
  { c with cur := { c.cur with gasRefund := refund.toInt64.toInt } }
def setReturnCode (c : OutCtx) (rc : ReturnCode) : OutCtx := { c with cur := { c.cur with returnCode := rc } }
def setReturnMessage (c : OutCtx) (m : Bytes) : OutCtx := { c with cur := { c.cur with returnMessage := m } }
/-- `Finish` (`output.go` 208-210). -/
def finish (c : OutCtx) (d : Bytes) : OutCtx := { c with cur := { c.cur with returnData := c.cur.returnData ++ [d] } }
/-- `PrependFinish` (`output.go` 213-215). -/
def prependFinish (c : OutCtx) (d : Bytes) : OutCtx :=
  { c with cur := { c.cur with returnData := d :: c.cur.returnData } }
/-- `WriteLog` (`output.go` 218-240). -/
def writeLog (c : OutCtx) (readOnly : Bool) (address : Addr) (topics : List Bytes) (data : Bytes) : OutCtx :=
  if readOnly then c
  else
    let entry : LogEntry := match topics with
      | [] => { identifier := [], address := address, topics := [], data := data }
      | t :: ts => { identifier := t, address := address, topics := ts, data := data }
    { c with cur := { c.cur with logs := c.cur.logs ++ [entry] } }
/-- `AddTxValueToAccount` (`output.go` 396-399). -/
def addTxValue (c : OutCtx) (a : Addr) (v : Int) : OutCtx :=
  c.modAcc a (fun acc => { acc with balanceDelta := acc.balanceDelta + v })
/-- `DeployCode` (`output.go` 417-425). -/
def deployCode (c : OutCtx) (i : CodeDeployInput) : OutCtx :=
  let c' := c.modAcc i.address (fun acc =>
    { acc with code := i.code, codeMetadata := i.metadata, deployer := some i.deployer })
  { c' with codeUpdates := if i.address ∈ c.codeUpdates then c.codeUpdates else i.address :: c.codeUpdates }
/-- `removeNonUpdatedCode` (`output.go` 458-467). -/
def removeNonUpdatedCode (c : OutCtx) : OutCtx :=
  { c with cur := { c.cur with accounts := ⟨c.cur.accounts.entries.map (fun p => (p.1,
      if p.1 ∈ c.codeUpdates then p.2 else { p.2 with code := [], codeMetadata := [], deployer := none })),
    by simpa [List.map_map, Function.comp_def] using c.cur.accounts.nodup⟩ } }

end OutCtx

/-- `resolveReturnCodeFromError` (`output.go` 469-503). -/
def resolveReturnCode : Option Err → ReturnCode
  | none => .ok
  | some e =>
    if e.isA .signalError then .userError
    else if e.isA .funcNotFound then .functionNotFound
    else if (match e with | .functionNonvoidSignature _ => true | _ => false) then .functionWrongSignature
    else if e.isA .invalidFunction then .userError
    else if e.isA .notEnoughGas then .outOfGas
    else if e.isA .contractNotFound then .contractNotFound
    else if e.isA .contractInvalid then .contractInvalid
    else if e.isA .upgradeFailed then .upgradeFailed
    else if e.isA .transferInsufficientFunds then .outOfFunds
    else .executionFailed

end Arwen
