import Verif.Ctx.Metering
/-
Model of `arwen/contexts/blockchain.go` and of the value transfer part of `arwen/contexts/output.go`.
-/
namespace Arwen
variable {χ A : Type} (E : Env χ A)

/-- account behind the hook, errors and nil merged (`err != nil || IfNil(account)`) -/
def acctOf (s : St χ A) (a : Addr) : Option UserAcct :=
  match E.hook.userAccount s.world a with
  | .ok (some acc) => some acc
  | _ => none

/-- `AccountExists` (`blockchain.go` 54-62). -/
def accountExists (s : St χ A) (a : Addr) : Bool := (acctOf E s a).isSome

/-- `GetBalanceBigInt` (`blockchain.go` 72-95). -/
def getBalance (a : Addr) (s : St χ A) : Int × St χ A :=
  let (acc, isNew, out') := s.out.getAcc a
  let s' := { s with out := out' }
  let cached : Option Int := if isNew then none else acc.balance
  match cached with
  | some b => (b + acc.balanceDelta, s')
  | none =>
    match acctOf E s a with
    | none => (0, s')
    | some ua =>
      (if isNew then ua.balance else ua.balance + acc.balanceDelta,
       { s' with out := s'.out.setAcc a { acc with balance := some ua.balance } })

/-- `GetNonce` (`blockchain.go` 98-115). -/
def getNonce (a : Addr) (s : St χ A) : Except Err UInt64 × St χ A :=
  let (acc, isNew, out') := s.out.getAcc a
  let s' := { s with out := out' }
  if !(isNew || (acc.nonce = 0 && s.flags.v3)) then (.ok acc.nonce, s')
  else
    match E.hook.userAccount s.world a with
    | .error e => (.error e, s')
    | .ok none => (.ok 0, s')
    | .ok (some ua) => (.ok ua.nonce, { s' with out := s'.out.setAcc a { acc with nonce := ua.nonce } })

/-- `IncreaseNonce` (`blockchain.go` 118-122): a failed read counts as 0. -/
def increaseNonce (a : Addr) (s : St χ A) : St χ A :=
  let (r, s') := getNonce E a s
  let n := match r with | .ok n => n | .error _ => 0
  { s' with out := s'.out.modAcc a (fun acc => { acc with nonce := n + 1 }) }

/-- `NewAddress` (`blockchain.go` 37-51). -/
def newAddress (creator : Addr) (s : St χ A) : Except Err Addr × St χ A :=
  let (r, s') := getNonce E creator s
  match r with
  | .error e => (.error e, s')
  | .ok nonce =>
    let indirect := E.hook.isSmartContract s'.world creator && s'.flags.v3
    let nonce := if !indirect && nonce > 0 then nonce - 1 else nonce
    (E.hook.newAddress s'.world creator nonce E.vmType, s')

/-- `GetCodeHash` (`blockchain.go` 130-141); nil is `[]`. -/
def getCodeHash (s : St χ A) (a : Addr) : Bytes :=
  match acctOf E s a with
  | none => []
  | some ua => ua.codeHash

/-- `GetCode` (`blockchain.go` 144-168). -/
def getCode (a : Addr) (s : St χ A) : Except Err Bytes × St χ A :=
  let (acc, isNew, out') := s.out.getAcc a
  let s' := { s with out := out' }
  if !isNew && acc.code.length > 0 then (.ok acc.code, s')
  else
    match E.hook.userAccount s.world a with
    | .error e => (.error e, s')
    | .ok none => (.error .invalidAccount, s')
    | .ok (some ua) =>
      if ua.code.length = 0 then (.error .contractNotFound, s')
      else (.ok ua.code, { s' with out := s'.out.setAcc a { acc with code := ua.code } })

/-- `BlockHash` (`blockchain.go` 183-194); nil is `[]`, and `none` a panic of the hook. -/
def blockHash (s : St χ A) (number : Int64) : Option Bytes :=
  if number < 0 then some []
  else match E.hook.blockhash s.world number.toUInt64 with
    | none => none
    | some (.ok b) => some b
    | some (.error _) => some []

/-- `GetOwnerAddress` (`blockchain.go` 252-260). -/
def getOwner (s : St χ A) : Except Err Addr :=
  match E.hook.userAccount s.world s.rt.cur.scAddress with
  | .error e => .error e
  | .ok none => .ok []
  | .ok (some ua) => .ok ua.owner

/-- `AreInSameShard` (`arwen/host/arwen.go` 410-414). -/
def sameShard (s : St χ A) (a b : Addr) : Bool := E.hook.shardOf s.world a = E.hook.shardOf s.world b

namespace St
/-- `PushState` of the blockchain context (`blockchain.go` 316-319). -/
def bcPush (s : St χ A) : St χ A := { s with bcStack := E.hook.snapshot s.world :: s.bcStack }
/-- `PopSetActiveState` (`blockchain.go` 322-333). -/
def bcPopSet (s : St χ A) : St χ A :=
  match s.bcStack with
  | [] => s
  | n :: rest => { s with world := E.hook.revert s.world n, bcStack := rest }
/-- `PopDiscard` (`blockchain.go` 336-343). -/
def bcPopDiscard (s : St χ A) : St χ A := { s with bcStack := s.bcStack.tail }
end St

/-! ### Value transfer (`output.go` 243-302, 391-394) -/

/-- `TransferValueOnly` (`output.go` 243-277) with `hasSufficientBalance` (391-394). -/
def transferValueOnly (dest sender : Addr) (value : Int) (checkPayable : Bool) (s : St χ A) : Option Err × St χ A :=
  if value < 0 then (some .transferNegativeValue, s)
  else
    let (bal, s) := getBalance E sender s
    if bal < value then (some .transferInsufficientFunds, s)
    else
      match E.hook.isPayable s.world dest with
      | .error e => (some e, s)
      | .ok payable =>
        let isAsync := s.flags.v3 && s.rt.cur.vmInput.callType = .asynchronousCall
        if (checkPayable || !s.flags.esdt) && !payable && value > 0 && !isAsync then (some .accountNotPayable, s)
        else
          let out := s.out.getAcc sender |>.2.2.getAcc dest |>.2.2
          let out := out.modAcc sender (fun acc => { acc with balanceDelta := acc.balanceDelta - value })
          let out := out.modAcc dest (fun acc => { acc with balanceDelta := acc.balanceDelta + value })
          (none, { s with out := out })

/-- append an output transfer to an account -/
def addTransfer (dest : Addr) (t : OutTransfer) (s : St χ A) : St χ A :=
  { s with out := s.out.modAcc dest (fun acc => { acc with transfers := acc.transfers ++ [t] }) }

/-- `Transfer` (`output.go` 282-302). -/
def transfer (dest sender : Addr) (gasLimit gasLocked : UInt64) (value : Int) (data : Bytes) (ct : CallType)
    (s : St χ A) : Option Err × St χ A :=
  let (e, s) := transferValueOnly E dest sender value (gasLimit > 0 && ct ≠ .asynchronousCallBack) s
  match e with
  | some e => (some e, s)
  | none => (none, addTransfer dest
      { value := value, gasLimit := gasLimit, gasLocked := gasLocked, data := data, callType := ct, sender := sender } s)

/-! ### Final output (`output.go` 402-456) -/

/-- `CreateVMOutputInCaseOfError` (`output.go` 428-456). -/
def outputOnError (e : Err) (s : St χ A) : VMOutput × St χ A :=
  let msg := if e.isA .signalError then s.out.cur.returnMessage
    else if s.out.cur.returnMessage.length > 0 then s.out.cur.returnMessage
    else E.errText e
  ({ returnCode := resolveReturnCode (some e), returnMessage := msg }, updateGasOnFailure s)

/-- `GetVMOutput` (`output.go` 402-414). -/
def getVMOutput (s : St χ A) : VMOutput × St χ A :=
  let s := { s with out := s.out.removeNonUpdatedCode }
  let s := { s with out := { s.out with cur := { s.out.cur with gasRemaining := s.gasLeft } } }
  let (e, s) := updateGasOnSuccess s
  match e with
  | some e => outputOnError E e s
  | none => (s.out.cur, s)

end Arwen
