import Verif.Host.Exec
import Verif.Spec.Effects
/-
Asynchronous calls, as a contract developer sees them. Gas amounts are natural numbers.
-/
namespace Arwen.Spec
variable {χ A : Type}

/-! ### Groups of calls (C31) -/

/-- all calls of all groups -/
def allCalls (info : AsyncContextInfo) : List AsyncGeneratedCall := info.contexts.entries.flatMap fun p => p.2.calls
/-- the gas asked for by the calls that say how much they need -/
def requestedGas (cs : List AsyncGeneratedCall) : Nat := (cs.map fun c => c.providedGas.toNat).sum
/-- the number of calls that do not say how much gas they need -/
def openCalls (cs : List AsyncGeneratedCall) : Nat := (cs.filter fun c => c.providedGas.toNat = 0).length
/-- the gas limit of a call: what it asked for, or an equal share of the rest -/
def fairLimit (gas : Nat) (cs : List AsyncGeneratedCall) (c : AsyncGeneratedCall) : Nat :=
  if c.providedGas.toNat = 0 then (gas - requestedGas cs) / openCalls cs else c.providedGas.toNat
/-- the gas limits given to the calls -/
def limits (cs : List AsyncGeneratedCall) : List Nat := cs.map fun c => c.gasLimit.toNat

/-! ### Reservation for the callback (C28) -/

/-- the running contract has a function `callBack` -/
def HasCallback (s : St χ A) (i : Nat) : Prop := ∃ p ∈ (s.insts i).mod.exports, p.1 = "callBack".toUTF8.data.toList

/-- The gas to be reserved: nothing for a contract without callback (once gas is locked dynamically); otherwise one
asynchronous step, the schedule's lock, and the price of preparing the code again. -/
def reservation (s : St χ A) (needed : Bool) : Nat :=
  if needed then
    (if s.flags.dynGasLock then
      s.rt.codeSize.toNat * (if s.flags.aot then s.met.sched.aotPreparePerByte else s.met.sched.compilePerByte).toNat else 0) +
    ((s.met.sched.api .asyncCallStep).toNat + (s.met.sched.api .asyncCallbackGasLock).toNat)
  else 0

/-- the transfer that carries a call out of the shard -/
def sentCall (v : AsyncView) (sender : Addr) : OutTransfer where
  value := bytesToNat v.valueBytes
  gasLimit := v.gasLimit
  gasLocked := v.gasLocked
  data := v.data
  callType := .asynchronousCall
  sender := sender

/-- price of handing arguments to the callback: one step and a price per byte, argument and byte of its name -/
def handoverGas (s : St χ A) (fn : Bytes) (args : List Bytes) : Nat :=
  (s.met.sched.api .asyncCallStep).toNat +
    s.met.sched.dataCopyPerByte.toNat * (fn.length + args.length + (args.map List.length).sum)

/-! ### What the callback is told (C29) -/

/-- the arguments of the callback: the code of the outcome first, then the results or the error message -/
def outcomeArgs (o : VMOutput) (e : Option Err) : List Bytes :=
  natToBytes o.returnCode.toNat :: (if e = none ∧ o.returnCode = .ok then o.returnData else [o.returnMessage])

/-! ### Where a call is executed (C29) -/

/-- a transfer of tokens without a call -/
def PlainTokens (f : Bytes) (args : List Bytes) : Prop :=
  (f = "ESDTTransfer".toUTF8.data.toList ∧ args.length = 2) ∨ (f = "ESDTNFTTransfer".toUTF8.data.toList ∧ args.length = 4)

/-- tokens are returned to the contract that is waiting for the result of the running call -/
def GoesBack (s : St χ A) (dest : Addr) (f : Bytes) (args : List Bytes) : Prop :=
  PlainTokens f args ∧ s.rt.cur.vmInput.callType = .asynchronousCall ∧ s.rt.cur.vmInput.caller = dest

/-- there is code at the address: deployed in this transaction, or known to the node -/
def HasCode (E : Env χ A) (s : St χ A) (a : Addr) : Prop :=
  (∃ acc, s.out.cur.accounts.get? a = some acc ∧ acc.code ≠ []) ∨
  ∃ ua, E.hook.userAccount s.world a = .ok (some ua) ∧ ua.code ≠ []

/-- The destination is executed at once: a built-in function for an account of this shard (except for tokens that go back), or a contract
whose code is known. -/
def RunsHere (E : Env χ A) (s : St χ A) (dest : Addr) (f : Bytes) (args : List Bytes) : Prop :=
  if E.isBuiltin f then E.hook.shardOf s.world s.rt.cur.scAddress = E.hook.shardOf s.world dest ∧ ¬ GoesBack s dest f args
  else HasCode E s dest

/-- A callback that failed (or could not run) is noted in the results of the calling contract, which itself goes on: its own input counts as having no
gas left, the message is that of the failure, and the results end with the name of the code and the hash of the transaction. -/
structure FailureNoted (E : Env χ A) (code : ReturnCode) (message : Bytes) (v t : St χ A) : Prop where
  gas : t.rt.cur.vmInput.gasProvided = 0
  input : { t.rt.cur.vmInput with gasProvided := v.rt.cur.vmInput.gasProvided } = v.rt.cur.vmInput
  message : t.out.cur.returnMessage = message
  results : t.out.cur.returnData = v.out.cur.returnData ++ [E.retCodeText code, v.rt.cur.vmInput.currentTxHash]
  code : t.out.cur.returnCode = v.out.cur.returnCode
  logs : t.out.cur.logs = v.out.cur.logs
  transfers : ∀ a, transfers t.out.cur a = transfers v.out.cur a
  world : t.world = v.world

/-- what the end of the callback leaves: nothing if it succeeded -/
def CallbackEnded (E : Env χ A) (r : DestResult) (v t : St χ A) : Prop :=
  (r.err = none → t = v) ∧ (r.err ≠ none → FailureNoted E r.output.returnCode r.output.returnMessage v t)

/-- what remains if the callback could not be called because of the error `e` -/
def CallbackRefused (E : Env χ A) (e : Err) (v t : St χ A) : Prop :=
  FailureNoted E (resolveReturnCode (some e))
    (if e.isA .signalError = true ∨ v.out.cur.returnMessage ≠ [] then v.out.cur.returnMessage else E.errText e) v t

/-! ### Groups of calls in the shard (C29) -/

/-- the callback that is to answer a call of a group: one is named for success and one for failure -/
def namedCallback (c : AsyncGeneratedCall) (o : VMOutput) : Bytes := if o.returnCode = .ok then c.successCallback else c.errorCallback

/-- the input `i` tells the running contract, through the function `cb`, how a call of `dst` ended -/
structure TellsOutcome (s : St χ A) (o : VMOutput) (e : Option Err) (dst : Addr) (cb : Bytes) (i : CallInput) : Prop where
  here : i.recipient = s.rt.cur.scAddress
  caller : i.vm.caller = dst
  answer : i.vm.callType = .asynchronousCallBack
  gas : i.vm.gasProvided.toNat ≤ o.gasRemaining.toNat
  plain : esdtReturn o e = none → i.function = cb ∧ i.vm.args = outcomeArgs o e
  /-- with tokens: through their transfer -/
  tokens : ∀ f targs, esdtReturn o e = some (f, targs) →
    i.function = f ∧ i.vm.args = targs ++ [cb, natToBytes o.returnCode.toNat] ++ o.returnData.tail

/-- The round of one call of a group: the destination runs, called by the running contract as the call says. If it waits for nothing itself,
the callback named for the outcome runs, once, and the call is marked as answered; otherwise it stays pending. -/
def CallRound (E : Env χ A) (ex : Executor χ A) (c : AsyncGeneratedCall) (s : St χ A) (c' : AsyncGeneratedCall) (t : St χ A) : Prop :=
  ∃ d r u m, d.recipient = c.destination ∧ parseCallData c.data = some (d.function, d.vm.args) ∧ d.vm.caller = s.rt.cur.scAddress ∧
    d.vm.callValue = (bytesToNat c.valueBytes : Int) ∧ d.vm.callType = .asynchronousCall ∧ d.vm.gasProvided = s.gasLeft ∧
    ex.dest d s = (.ok r, u) ∧ r.asyncInfo = some m ∧
    (((∀ x ∈ allCalls m, x.status ≠ .pending) ∧
        c' = { c with status := if r.output.returnCode = .ok then .resolved else .rejected } ∧
        ∃ i cr v, TellsOutcome u r.output r.err c.destination (namedCallback c r.output) i ∧ ex.dest i u = (.ok cr, v) ∧
          CallbackEnded E cr v t) ∨
     ((∃ x ∈ allCalls m, x.status = .pending) ∧ c' = c ∧ r.err = none ∧ t = u))

/-- only looked up: what is sent and everything outside the output is the same -/
def LookedUp (s t : St χ A) : Prop := ∃ o, t = { s with out := o } ∧ ∀ a, transfers o.cur a = transfers s.out.cur a

/-- The calls of a group, one after the other: those to contracts that are known have their round; the others stay as they are. -/
inductive Served (E : Env χ A) (ex : Executor χ A) : List AsyncGeneratedCall → St χ A → List AsyncGeneratedCall → St χ A → Prop
  | nil (s : St χ A) : Served E ex [] s [] s
  | elsewhere {c l l' s s1 t} : ¬ HasCode E s c.destination → LookedUp s s1 → Served E ex l s1 l' t → Served E ex (c :: l) s (c :: l') t
  | here {c c' l l' s s1 u t} : HasCode E s c.destination → LookedUp s s1 → CallRound E ex c s1 c' u → Served E ex l u l' t →
      Served E ex (c :: l) s (c' :: l') t

end Arwen.Spec
