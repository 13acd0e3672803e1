import Verif.Spec.Entries
import Verif.Spec.Value
import Verif.Spec.Async
import Verif.Spec.Tokens
/-
What contracts hand out: results, logs, payments, and requests for calls, deployments and upgrades.
-/
namespace Arwen.Spec
variable {χ A : Type}

/-- The function pays its price, answers `r` and makes `o` the output; nothing else changes. -/
def Says (E : Env χ A) (ex : Executor χ A) (p : Free χ A Int64) (s : St χ A) (i price : Nat) (o : VMOutput) (r : Int64) : Prop :=
  ∃ u, OnlyPaid s u i price ∧ interp E ex p s = (.ok r, { u with out := { s.out with cur := o } })

/-- one more result -/
def withResult (o : VMOutput) (d : Bytes) : VMOutput := { o with returnData := o.returnData ++ [d] }

/-- one more log entry -/
def withLog (o : VMOutput) (e : LogEntry) : VMOutput := { o with logs := o.logs ++ [e] }

/-! ### Payments -/

/-- May this value be sent to the account? It has to be payable, unless nothing is sent or an asynchronous call is running. The check is left
out for transfers without gas. -/
def MayReceive (E : Env χ A) (s : St χ A) (dest : Addr) (v : Nat) (gas : UInt64) : Prop :=
  ∃ b, E.hook.isPayable s.world dest = .ok b ∧
    (b = true ∨ v = 0 ∨ (gas = 0 ∧ s.flags.esdt = true) ∨ (s.flags.v3 = true ∧ s.rt.cur.vmInput.callType = .asynchronousCall))

/-- After `t`: the price has been paid; the value has moved from one account to the other, and the receipt has the note `x` about it;
nothing else has changed. (What an account is known to own may be noted.) -/
structure PaidOut (E : Env χ A) (s t : St χ A) (i price : Nat) (sender dest : Addr) (v : Nat) (x : OutTransfer) : Prop where
  paid : OnlyPaid s { t with out := s.out } i price
  rest : t.out = { s.out with cur := { s.out.cur with accounts := t.out.cur.accounts } }
  accounts : ∀ a, { noted t.out a with balance := none } =
    { noted s.out a with
      balance := none
      balanceDelta := (noted s.out a).balanceDelta + (if a = dest then (v : Int) else 0) - (if a = sender then (v : Int) else 0)
      transfers := (noted s.out a).transfers ++ if a = dest then [x] else [] }
  known : ∀ a, known E t a = known E s a

/-- The execution fails, and nothing has been paid out. -/
structure NotPaidOut (E : Env χ A) (s t : St χ A) : Prop where
  failed : t.curBp = .executionFailed
  accounts : ∀ a, { noted t.out a with balance := none } = { noted s.out a with balance := none }
  known : ∀ a, known E t a = known E s a
  world : t.world = s.world

/-- the note in the receipt about a payment by a contract -/
def payment (sender : Addr) (v : Nat) (gas : UInt64) (data : Bytes) : OutTransfer :=
  { value := v, gasLimit := gas, data := data, callType := .directCall, sender := sender }

/-! ### Requests -/

/-- the call is the last one of its group -/
def withCall (g : Option AsyncContext) (c : AsyncGeneratedCall) : AsyncContext :=
  { callback := (g.map AsyncContext.callback).getD [], calls := (g.map AsyncContext.calls).getD [] ++ [c] }

/-- Only the groups of asynchronous calls are different: the group `id` is `g`. -/
structure GroupSet (s t : St χ A) (id : Bytes) (g : AsyncContext) : Prop where
  rest : t = { s with rt := { s.rt with cur := { s.rt.cur with asyncContextInfo := t.rt.cur.asyncContextInfo } } }
  info : t.rt.cur.asyncContextInfo = { s.rt.cur.asyncContextInfo with contexts := t.rt.cur.asyncContextInfo.contexts }
  groups : ∀ j, t.rt.cur.asyncContextInfo.contexts.get? j = if j = id then some g else s.rt.cur.asyncContextInfo.contexts.get? j

/-- The asynchronous call has been registered and the running contract stops: the price and the reservation have been paid, the rest of the gas
goes to the call. Nothing else has changed. -/
structure Registered (s t : St χ A) (i price : Nat) (dest : Addr) (data value : Bytes) (reserved : Nat) : Prop where
  rest : t = { s with insts := t.insts, rt := { s.rt with cur := { s.rt.cur with asyncCallInfo := t.rt.cur.asyncCallInfo } } }
  info : ∃ info, t.rt.cur.asyncCallInfo = some info ∧ info.destination = dest ∧ info.data = data ∧ info.valueBytes = value ∧
    info.gasLocked.toNat = reserved ∧ info.gasLimit.toNat = s.gasLeft.toNat - price - reserved
  others : ∀ j, j ≠ i → t.insts j = s.insts j
  running : t.insts i = { s.insts i with points := (t.insts i).points, bp := .asyncCall }
  points : (t.insts i).points.toNat = (s.insts i).points.toNat + price + reserved

/-- the code of a contract: deployed in this transaction, or on the chain -/
def codeOf (E : Env χ A) (s : St χ A) (a : Addr) : Option Bytes :=
  if (noted s.out a).code ≠ [] then some (noted s.out a).code
  else match E.hook.userAccount s.world a with
    | .ok (some ua) => if ua.code = [] then none else some ua.code
    | _ => none

/-- a deployment asked for by a contract -/
def aDeployment (creator : Addr) (v : Nat) (gas : UInt64) (code metadata : Bytes) (args : List Bytes) : CreateInput :=
  { vm := { caller := creator, args := args, callValue := v, gasPrice := 0, gasProvided := gas }, code := code, metadata := metadata }

/-- The answer to a deployment: 0 and the address of the new contract in the memory, if there is room for it, or else the end of the
execution; 1 if there is no new contract. -/
structure DeployAnswer (E : Env χ A) (i : Nat) (off : Int32) (r : Except Err Addr) (s : St χ A) (q : Res Int64 × St χ A) : Prop where
  none : ∀ e, r = .error e → q = (.ok 1, s)
  room : ∀ a, r = .ok a → Fits s i off a → q.1 = .ok 0 ∧ Wrote s q.2 i 0 off a
  always : ∀ a, r = .ok a → (q.1 = .ok 0 ∧ Wrote s q.2 i 0 off a) ∨ (q.1 = .ok 1 ∧ q.2.curBp = .executionFailed)

/-- The function `p`, run in the state `s`, does what the deployment `c`, run in the state `u`, does, and then gives its answer. (The address has to
have a reasonable length, and the memory a reasonable size.) -/
def Deploys (E : Env χ A) (ex : Executor χ A) (p : Free χ A Int64) (s u : St χ A) (i : Nat) (off : Int32) (c : CreateInput) : Prop :=
  ∀ r t, createNewContract E ex c u = (r, t) →
    (∀ q, r = .ok q → (∀ a, q = .ok a → (t.insts i).mem.length + 65537 < 2 ^ 31 ∧ a.length < 2 ^ 31 ∧ (t.insts i).points.toNat ≤ 2 ^ 63 - 1) →
      DeployAnswer E i off q t (interp E ex p s)) ∧
    (r = .panic → interp E ex p s = (.panic, t))

/-- Only this is different: the receipt has noted the code of an account. -/
structure CodeSeen (s t : St χ A) (a : Addr) (code : Bytes) : Prop where
  rest : t = { s with out := { s.out with cur := { s.out.cur with accounts := t.out.cur.accounts } } }
  accounts : ∀ b, noted t.out b = { noted s.out b with code := if b = a then code else (noted s.out b).code }

/-- the data of an upgrade: the function `upgradeContract`, the code, the metadata, the arguments -/
def upgradeText (code metadata : Bytes) (args : List Bytes) : Bytes := callText "upgradeContract".toUTF8.data.toList (code :: metadata :: args)

/-- The answer to an upgrade of a contract is always 0. If the gas limit is less than two steps and the schedule's lock, the contract runs out of gas.
If it is not, and there is enough gas for a step and the reservation, the upgrade is registered as an asynchronous call. Otherwise nothing is
registered, and the contract goes on. -/
structure Upgrades (E : Env χ A) (ex : Executor χ A) (p : Free χ A Int64) (s u : St χ A) (i price : Nat) (gas : Int64) (dest : Addr) (data value : Bytes)
    (reserved : Nat) : Prop where
  low : gas.toUInt64.toNat < 2 * (s.met.sched.api .asyncCallStep).toNat + (s.met.sched.api .asyncCallbackGasLock).toNat →
    ∃ t, interp E ex p s = (.ok 0, t.withBp .outOfGas) ∧ OnlyPaid u t i price
  done : 2 * (s.met.sched.api .asyncCallStep).toNat + (s.met.sched.api .asyncCallbackGasLock).toNat ≤ gas.toUInt64.toNat →
    price + (s.met.sched.api .asyncCallStep).toNat + reserved < u.gasLeft.toNat →
    ∃ t, interp E ex p s = (.ok 0, t) ∧ Registered u t i (price + (s.met.sched.api .asyncCallStep).toNat) dest data value reserved
  short : 2 * (s.met.sched.api .asyncCallStep).toNat + (s.met.sched.api .asyncCallbackGasLock).toNat ≤ gas.toUInt64.toNat →
    u.gasLeft.toNat ≤ price + (s.met.sched.api .asyncCallStep).toNat + reserved →
    ∃ t q, interp E ex p s = (.ok 0, t) ∧ OnlyPaid u t i q

/-- a call that comes with tokens -/
def aTokenCall (sender : Addr) (gas : UInt64) (dest : Addr) (f : Bytes) (args : List Bytes) (token : Bytes) (nonce : Int64) (v : Nat) : CallInput :=
  { vm := { caller := sender, args := args, callValue := 0, gasPrice := 0, gasProvided := gas,
            esdt := [{ value := v, name := token, tokenType := if nonce > 0 then 1 else 0, nonce := nonce.toUInt64 }] },
    recipient := dest, function := f }

/-- Tokens are sent with a call, and the call is made if the receiver is a contract in the shard, with the gas that the transfer has left. If the
transfer is refused the execution fails. If the call fails, the answer is 1 and the chain is as it was before. -/
def sendTokens (E : Env χ A) (ex : Executor χ A) (c : CallInput) (token : Bytes) (nonce : UInt64) (v : Nat) : M χ A Int64 := fun u =>
  match transferESDT E c.recipient c.vm.caller token nonce v (some c) u with
  | (.ok (.error e), t) => (.ok 1, t.faulted E e)
  | (.ok (.ok gas), t) =>
    if E.hook.shardOf t.world c.vm.caller = E.hook.shardOf t.world c.recipient ∧ E.hook.isSmartContract t.world c.recipient = true then
      match ex.dest { c with vm := { c.vm with gasProvided := gas } } t with
      | (.ok r, x) => if r.err = none then (.ok 0, x) else (.ok 1, { x with world := E.hook.revert x.world (E.hook.snapshot u.world) })
      | (.panic, x) => (.panic, x)
      | (.oof, x) => (.oof, x)
    else (.ok 0, t)
  | (.panic, t) => (.panic, t)
  | (.oof, t) => (.oof, t)

end Arwen.Spec
