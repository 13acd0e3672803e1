import Verif.BigInt.Context
import Verif.Ctx.Output
/-
Model of `arwen/contexts/metering.go` and of the gas counters of `arwen/contexts/runtime.go`.
-/
namespace Arwen
variable {χ A : Type}

namespace St

/-- change the instance with identity `i` -/
def modInst (s : St χ A) (i : Nat) (f : Inst A → Inst A) : St χ A :=
  { s with insts := fun j => if j = i then f (s.insts i) else s.insts j }

/-- `GetPointsUsed` (`runtime.go` 673-678). -/
def pointsUsed (s : St χ A) : UInt64 :=
  match s.rt.instance_ with
  | none => 0
  | some i => (s.insts i).points

/-- `GasLeft` (`metering.go` 334-343). -/
def gasLeft (s : St χ A) : UInt64 :=
  if s.met.cur.gasForExecution < s.pointsUsed then 0 else s.met.cur.gasForExecution - s.pointsUsed

/-- `GasSpentByContract` (`metering.go` 347-359). -/
def gasSpentByContract (s : St χ A) : UInt64 :=
  addU64 (if s.flags.v2 then s.met.cur.initialCost else 0) s.pointsUsed

/-- `GasUsedForExecution` (`metering.go` 362-366). -/
def gasUsedForExecution (s : St χ A) : UInt64 := subU64 s.gasSpentByContract s.met.cur.initialCost

/-- `BoundGasLimit` (`metering.go` 384-392). -/
def boundGasLimit (s : St χ A) (value : Int64) : UInt64 :=
  if s.gasLeft < value.toUInt64 then s.gasLeft else value.toUInt64

/-- `ComputeGasLockedForAsync` (`metering.go` 413-434). -/
def computeGasLocked (s : St χ A) : UInt64 :=
  let costPerByte := if s.flags.aot then s.met.sched.aotPreparePerByte else s.met.sched.compilePerByte
  let compilation := if s.flags.dynGasLock then mulU64 s.rt.codeSize costPerByte else 0
  let execution := addU64 (s.met.sched.api .asyncCallStep) (s.met.sched.api .asyncCallbackGasLock)
  addU64 compilation execution

end St

/-- `SetPointsUsed` (`runtime.go` 679-684): clamped to `MaxInt64`; a nil instance panics. -/
def setPointsUsed (g : UInt64) : M χ A Unit := fun s =>
  match s.rt.instance_ with
  | none => (.panic, s)
  | some i => (.ok (), s.modInst i (fun x => { x with points := if g > 0x7FFFFFFFFFFFFFFF then 0x7FFFFFFFFFFFFFFF else g }))

/-- `SetRuntimeBreakpointValue` (`runtime.go` 564-567). -/
def setBreakpoint (b : Breakpoint) : M χ A Unit := fun s =>
  match s.rt.instance_ with
  | none => (.panic, s)
  | some i => (.ok (), s.modInst i (fun x => { x with bp := b }))

/-- `GetRuntimeBreakpointValue` (`runtime.go` 570-572). -/
def getBreakpoint : M χ A Breakpoint := fun s =>
  match s.rt.instance_ with
  | none => (.panic, s)
  | some i => (.ok (s.insts i).bp, s)

/-- `UseGas` (`metering.go` 313-316). -/
def useGas (g : UInt64) : M χ A Unit := do
  let s ← M.get
  setPointsUsed (addU64 s.pointsUsed g)

/-- `RestoreGas` (`metering.go` 319-325). -/
def restoreGas (g : UInt64) : M χ A Unit := do
  let s ← M.get
  if g ≤ s.pointsUsed then setPointsUsed (subU64 s.pointsUsed g) else pure ()

/-- `FreeGas` (`metering.go` 328-331). -/
def freeGas (g : UInt64) : M χ A Unit :=
  M.modify (fun s => { s with out := s.out.setRefund (addU64 s.out.getRefund g) })

/-- `UseGasBounded` (`metering.go` 404-410). -/
def useGasBounded (g : UInt64) : M χ A (Option Err) := do
  let s ← M.get
  if s.gasLeft ≤ g then pure (some .notEnoughGas)
  else do
    useGas g
    pure none

/-- `UseGasForAsyncStep` (`metering.go` 396-400). -/
def useGasForAsyncStep : M χ A (Option Err) := do
  let s ← M.get
  useGasBounded (s.met.sched.api .asyncCallStep)

namespace MeterCtx
/-- `InitState` (`metering.go` 52-58). -/
def initState (c : MeterCtx) : MeterCtx := { c with cur := {} }
/-- `PushState` (`metering.go` 70-79). -/
def push (c : MeterCtx) : MeterCtx := { c with stack := c.cur :: c.stack }
/-- `PopSetActiveState` (`metering.go` 83-96). -/
def popSet (c : MeterCtx) : MeterCtx :=
  match c.stack with
  | [] => c
  | p :: rest => { c with cur := p, stack := rest }
/-- `PopDiscard` (`metering.go` 99-106). -/
def popDiscard (c : MeterCtx) : MeterCtx := { c with stack := c.stack.tail }
/-- `PopMergeActiveState` and `addToGasUsedByAccounts` (`metering.go` 110-140). -/
def popMerge (c : MeterCtx) : MeterCtx :=
  match c.stack with
  | [] => c
  | p :: rest =>
    { c with
      cur := { initialGasProvided := p.initialGasProvided, initialCost := p.initialCost,
               gasForExecution := p.gasForExecution,
               gasUsedByAccounts := AMap.mergeWith (fun old g => old.getD 0 + g) c.cur.gasUsedByAccounts p.gasUsedByAccounts }
      stack := rest }
def clearStack (c : MeterCtx) : MeterCtx := { c with stack := [] }
end MeterCtx

/-- `InitStateFromContractCallInput` and `unlockGasIfAsyncCallback` (`metering.go` 62-67, 285-295).
The input is changed in place; the changed input is returned. -/
def meterInit (i : VMInput) : M χ A VMInput := fun s =>
  let i' := if i.callType = .asynchronousCallBack
    then { i with gasProvided := addU64 i.gasProvided i.gasLocked, gasLocked := 0 } else i
  (.ok i', { s with met := { s.met with cur :=
    { initialGasProvided := i'.gasProvided, initialCost := 0, gasForExecution := i'.gasProvided,
      gasUsedByAccounts := AMap.empty } } })

/-- `getGasTransferredByAccount` (`metering.go` 254-262). -/
def gasTransferred (a : OutAcc) : UInt64 :=
  a.transfers.foldl (fun g t => addU64 (addU64 g t.gasLimit) t.gasLocked) 0

/-- `getGasUsedByAllOtherAccounts` (`metering.go` 236-252). -/
def gasUsedByOthers (current : Addr) (used : AMap Addr UInt64) (accounts : AMap Addr OutAcc) : UInt64 :=
  accounts.entries.foldl (fun g p =>
    addU64 (addU64 g (if p.1 ≠ current then (used.get? p.1).getD 0 else 0)) (gasTransferred p.2)) 0

/-- `getCurrentTotalUsedGas` (`metering.go` 223-234). -/
def totalUsedGas (accounts : AMap Addr OutAcc) : UInt64 :=
  accounts.entries.foldl (fun g p => addU64 (addU64 g p.2.gasUsed) (gasTransferred p.2)) 0

/-- `updateSCGasUsed` (`metering.go` 167-183). -/
def updateSCGasUsed (s : St χ A) : St χ A :=
  let a := s.rt.cur.scAddress
  let (acc, _, out') := s.out.getAcc a
  let s := { s with out := out' }
  let g := subU64 (subU64 s.gasSpentByContract (gasTransferred acc))
    (gasUsedByOthers a s.met.cur.gasUsedByAccounts s.out.cur.accounts)
  { s with met := { s.met with cur := { s.met.cur with
      gasUsedByAccounts := s.met.cur.gasUsedByAccounts.insert a g } } }

/-- the error of `setGasUsedToOutputAccounts` ("expected OutputAccount has used gas but is missing") -/
def errMissingAccount : Err := .other 1

/-- `setGasUsedToOutputAccounts` (`metering.go` 264-277). -/
def setGasUsed (s : St χ A) : Option Err × St χ A :=
  let used := s.met.cur.gasUsedByAccounts
  let accounts : AMap Addr OutAcc := ⟨s.out.cur.accounts.entries.map (fun p =>
      (p.1, { p.2 with gasUsed := (used.get? p.1).getD 0 })),
    by simpa [List.map_map, Function.comp_def] using s.out.cur.accounts.nodup⟩
  let s' := { s with out := { s.out with cur := { s.out.cur with accounts := accounts } } }
  (if used.entries.all (fun p => accounts.contains p.1) then none else some errMissingAccount, s')

/-- `checkGas` (`metering.go` 206-221). -/
def checkGas (s : St χ A) : Option Err :=
  if !s.flags.v2 then none
  else if addU64 (totalUsedGas s.out.cur.accounts) s.out.cur.gasRemaining ≠ s.met.cur.initialGasProvided
    then some .inputAndOutputGasDoesNotMatch else none

/-- `UpdateGasStateOnSuccess` (`metering.go` 143-156), applied to the active output. -/
def updateGasOnSuccess (s : St χ A) : Option Err × St χ A :=
  let (e, s') := setGasUsed (updateSCGasUsed s)
  match e with
  | some e => (some e, s')
  | none => (checkGas s', s')

/-- `UpdateGasStateOnFailure` (`metering.go` 159-165). -/
def updateGasOnFailure (s : St χ A) : St χ A :=
  { s with out := s.out.modAcc s.rt.cur.scAddress (fun acc =>
      { acc with gasUsed := addU64 acc.gasUsed s.met.cur.initialGasProvided }) }

/-- `TrackGasUsedByBuiltinFunction` (`metering.go` 187-204). -/
def trackBuiltinGas (provided remaining : UInt64) (post : Option CallInput) : M χ A Unit :=
  let g := subU64 provided remaining
  useGas (match post with | none => g | some i => subU64 g i.vm.gasProvided)

/-- `deductInitialGas` (`metering.go` 481-498). -/
def deductInitialGas (codeLen : Nat) (baseCost costPerByte : UInt64) : M χ A (Option Err) := fun s =>
  let cost := addU64 baseCost (mulU64 (UInt64.ofNat codeLen) costPerByte)
  if cost > s.rt.cur.vmInput.gasProvided then (.ok (some .notEnoughGas), s)
  else (.ok none, { s with met := { s.met with cur := { s.met.cur with
    initialCost := cost, gasForExecution := s.rt.cur.vmInput.gasProvided - cost } } })

/-- `DeductInitialGasForExecution` (`metering.go` 448-461). -/
def deductForExecution (code : Bytes) : M χ A (Option Err) := do
  let s ← M.get
  if s.flags.aot then deductInitialGas code.length s.met.sched.getCode s.met.sched.aotPreparePerByte
  else deductInitialGas code.length 0 s.met.sched.compilePerByte

/-- `DeductInitialGasForDirectDeployment` (`metering.go` 464-470). -/
def deductForDirectDeployment (code : Bytes) : M χ A (Option Err) := do
  let s ← M.get
  deductInitialGas code.length (s.met.sched.api .createContract) s.met.sched.compilePerByte

/-- `DeductInitialGasForIndirectDeployment` (`metering.go` 473-479). -/
def deductForIndirectDeployment (code : Bytes) : M χ A (Option Err) := do
  let s ← M.get
  deductInitialGas code.length 0 s.met.sched.compilePerByte

end Arwen
