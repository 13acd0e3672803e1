import Verif.World.Mock
import Verif.Host.Top
/-
The execution of one transaction of a scenario on the mock world (`arwenmandos/stepRunTx.go`).
The virtual machine and the executor share the world: it is the world of the host state.
-/
namespace Arwen.Mock

/-- `mandos-go/json/model/transaction.go` 3-23 -/
inductive TxKind | scDeploy | scCall | scQuery | transfer | validatorReward
  deriving DecidableEq, Repr

/-- `HasSender`, `mandos-go/json/model/transaction.go` 26-28 -/
def TxKind.hasSender (k : TxKind) : Bool := k ≠ .scQuery && k ≠ .validatorReward

/-- `ESDTTxData`: token, its nonce, and amount -/
structure EsdtTx where
  token : Bytes
  nonce : UInt64
  value : Int
  deriving DecidableEq, Repr

/-- `Transaction`, `mandos-go/json/model/transaction.go` 61-73, without the texts that the values were written as and without the
nonce, which the executor does not use -/
structure ScTx where
  kind : TxKind
  value : Int := 0
  esdt : Option EsdtTx := none
  sender : Addr := []
  to : Addr := []
  function : Bytes := []
  code : Bytes := []
  args : List Bytes := []
  gasPrice : UInt64 := 0
  gasLimit : UInt64 := 0
  deriving DecidableEq, Repr

/-- the errors of a transaction step -/
inductive StepErr | setUp | esdt | noRecipient | notContract | vm | badSum
  deriving DecidableEq, Repr

/-- `generateTxHash`, `arwenmandos/util.go` 171-180 -/
def txHash (index : Bytes) : Bytes := index.take 32 ++ List.replicate (32 - index.length) 46

/-- `addESDTToVMInput`, `arwenmandos/util.go` 182-195 (`vmcommon.Fungible` is 0, `vmcommon.NonFungible` is 1) -/
def esdtTransfers (e : Option EsdtTx) : List EsdtTransfer :=
  match e with
  | none => []
  | some e => [{ value := e.value, name := e.token, tokenType := if e.nonce ≠ 0 then 1 else 0, nonce := e.nonce }]

/-- the `VMInput` of `scCreate` and `scCall`, `arwenmandos/stepRunTx.go` 183-193, 212-222 -/
def vmInput (index : Bytes) (tx : ScTx) (gas : UInt64) : VMInput :=
  { caller := tx.sender, args := tx.args, callValue := tx.value, gasPrice := tx.gasPrice, gasProvided := gas,
    originalTxHash := txHash index, currentTxHash := txHash index, esdt := esdtTransfers tx.esdt }

/-- the names of the built-in transfers of tokens, and the base-256 bytes of a number are those of `Basic/Bytes` -/
def esdtTransferName : Bytes := "ESDTTransfer".toUTF8.data.toList
def esdtNftTransferName : Bytes := "ESDTNFTTransfer".toUTF8.data.toList

/-- `PerformDirectESDTTransfer`, `mock/world/mockESDT.go` 54-101; the gas that is left -/
def directEsdt (L : Lib) (w : MockWorld) (tx : ScTx) (e : EsdtTx) : Option UInt64 × MockWorld :=
  let vm : VMInput := { caller := tx.sender, gasPrice := tx.gasPrice, gasProvided := tx.gasLimit }
  let input : CallInput :=
    if e.nonce > 0 then
      { vm := { vm with args := [e.token, natToBytes e.nonce.toNat, natToBytes e.value.natAbs, tx.to] }, recipient := tx.sender,
        function := esdtNftTransferName }
    else
      { vm := { vm with args := [e.token, natToBytes e.value.natAbs] }, recipient := tx.to, function := esdtTransferName }
  match L.builtin w input with
  | (.error _, w) => (none, w)
  | (.ok b, w) => if b.out.returnCode ≠ .ok then (none, w) else (some b.out.gasRemaining, w)

/-- `simpleTransferOutput`, `arwenmandos/stepRunTx.go` 111-129 -/
def transferOutput (tx : ScTx) : VMOutput := { accounts := AMap.empty.insert tx.to { balanceDelta := tx.value } }

/-- `outOfFundsResult`, `arwenmandos/stepRunTx.go` 167-179 -/
def outOfFunds : VMOutput := { returnCode := .outOfFunds }

/-- `ElrondRewardKey`, `arwenmandos/elrondProtectedStorage.go` 7 -/
def rewardKey : Bytes := "ELRONDreward".toUTF8.data.toList

/-- `validatorRewardOutput`, `arwenmandos/stepRunTx.go` 131-165: also sets the account's `BalanceDelta` -/
def rewardOutput (w : MockWorld) (tx : ScTx) : Except StepErr VMOutput × MockWorld :=
  match w.account tx.to with
  | none => (.error .noRecipient, w)
  | some acc =>
    let new := natToBytes ((bytesToNat (acc.storageValue rewardKey) : Int) + tx.value).natAbs
    (.ok { accounts := AMap.empty.insert tx.to { balanceDelta := tx.value, storage := AMap.empty.insert rewardKey new } },
     w.put tx.to { acc with balanceDelta := tx.value })

section
variable {A : Type} (E : Env MockWorld A) (L : Lib) (n : Nat)

/-- the result of an entry point of the VM: an output, or an error after a panic -/
def vmResult (r : RunResult) : Option (Except StepErr VMOutput) :=
  match r with
  | none => none
  | some none => some (.error .vm)
  | some (some o) => some (.ok o)

/-- `scCreate`, `arwenmandos/stepRunTx.go` 181-201; the code metadata of the input is nil -/
def scCreate (index : Bytes) (tx : ScTx) (gas : UInt64) (s : St MockWorld A) : Option (Except StepErr VMOutput) × St MockWorld A :=
  let r := runTx E n (.create { vm := vmInput index tx gas, code := tx.code, metadata := [] }) s
  (vmResult r.1, r.2)

/-- `scCall`, `arwenmandos/stepRunTx.go` 203-230 -/
def scCall (index : Bytes) (tx : ScTx) (gas : UInt64) (s : St MockWorld A) : Option (Except StepErr VMOutput) × St MockWorld A :=
  match s.world.account tx.to with
  | none => (some (.error .noRecipient), s)
  | some acc =>
    if acc.code = [] then (some (.error .notContract), s)
    else
      let r := runTx E n (.call { vm := vmInput index tx gas, recipient := tx.to, function := tx.function }) s
      (vmResult r.1, r.2)

/-- what happens before the VM runs, `arwenmandos/stepRunTx.go` 32-53: the gas for the execution, or an error with the flag whether
the deferred function will see it (the error of the token transfer is a variable of an inner block) -/
def beforeTx (tx : ScTx) (w : MockWorld) : Except (StepErr × Bool) UInt64 × MockWorld :=
  if tx.kind.hasSender then
    match w.updateBefore tx.sender tx.gasLimit tx.gasPrice with
    | (false, w) => (.error (.setUp, true), w)
    | (true, w) =>
      match tx.esdt with
      | none => (.ok tx.gasLimit, w)
      | some e =>
        match directEsdt L w tx e with
        | (none, w) => (.error (.esdt, false), w)
        | (some gas, w) => (.ok gas, w)
  else (.ok 0, w)

/-- `senderHasEnoughBalance`, `arwenmandos/stepRunTx.go` 103-109. The sender exists: its gas has been paid. -/
def enoughBalance (tx : ScTx) (w : MockWorld) : Bool :=
  !tx.kind.hasSender || decide (((w.account tx.sender).map WAcc.balance).getD 0 ≥ tx.value)

/-- the execution itself, `arwenmandos/stepRunTx.go` 58-90. A query is a call from the contract itself with all the gas there is. -/
def runKind (index : Bytes) (tx : ScTx) (gas : UInt64) (s : St MockWorld A) : Option (Except StepErr VMOutput) × St MockWorld A :=
  if !enoughBalance tx s.world then (some (.ok outOfFunds), s)
  else match tx.kind with
    | .scDeploy => scCreate E n index tx gas s
    | .scQuery => scCall E n index { tx with sender := tx.to, gasLimit := 0xFFFFFFFFFFFFFFFF } 0xFFFFFFFFFFFFFFFF s
    | .scCall => scCall E n index tx gas s
    | .transfer => (some (.ok (transferOutput tx)), s)
    | .validatorReward => let r := rewardOutput s.world tx; (some r.1, { s with world := r.2 })

/-- the sum of the balance changes of an output, `arwenmandos/stepRunTx.go` 265-268 -/
def sumOfDeltas (o : VMOutput) : Int := o.accounts.entries.foldl (fun n p => n + p.2.balanceDelta) 0

/-- `updateStateAfterTx`, `arwenmandos/stepRunTx.go` 244-276; the flag is false if the balance changes do not add up -/
def afterTx (tx : ScTx) (o : VMOutput) (w : MockWorld) : Bool × MockWorld :=
  let w := if tx.kind.hasSender then (w.updateBalanceWithDelta tx.sender (-tx.value)).2 else w
  let w := w.updateAccounts L o.accounts
  (!tx.kind.hasSender || sumOfDeltas o = tx.value, w)

/-- `executeTx`, `arwenmandos/stepRunTx.go` 13-101. At the end the changes are rolled back if the outer error variable is set, and
else committed; errors of the roll-back are lost. A failed execution sets the outer error but is reported as an output. `none`
means that the model's fuel for nested calls was exhausted. -/
def executeTx (index : Bytes) (tx : ScTx) (s : St MockWorld A) : Option (Except StepErr VMOutput) × St MockWorld A :=
  let r := beforeTx L tx s.world.backup
  let s := { s with world := r.2 }
  match r.1 with
  | .error (e, true) => (some (.error e), { s with world := s.world.rollback.2 })
  | .error (e, false) => (some (.error e), { s with world := s.world.commit })
  | .ok gas =>
    let r := runKind E n index tx gas s
    let s := r.2
    match r.1 with
    | none => (none, s)
    | some (.error e) => (some (.error e), { s with world := s.world.rollback.2 })
    | some (.ok o) =>
      if o.returnCode = .ok then
        let q := afterTx L tx o s.world
        (some (if q.1 then .ok o else .error .badSum), { s with world := q.2.commit })
      else (some (.ok o), { s with world := s.world.rollback.2 })

end

/-! ### Setting the state -/

/-- an account of a `setState` step, converted (`convertAccount`, `arwenmandos/util.go` 17-76): the account without its tokens, and the
keys and values under which `SetTokenData`, `SetLastNonce` and `SetTokenRoles` (`mock/world/mockESDTAccount.go`) store its tokens -/
structure SetAccount where
  address : Addr
  acc : WAcc
  tokens : List (Bytes × Bytes) := []

/-- `Validate`, `mock/world/worldAccountValidate.go` 19-42: a contract address if and only if there is code -/
def validAccount (a : Addr) (acc : WAcc) : Bool :=
  a.length = 32 && decide (a.take 8 = List.replicate 8 0) == decide (acc.code ≠ [])

/-- one account of `ExecuteSetStateStep`, `arwenmandos/execScenario.go` 86-98. The setters of tokens write to the map of the account's
storage itself (`mock/world/mockESDTAccount.go` 142-149). -/
def setAccount (w : MockWorld) (x : SetAccount) : Bool × MockWorld :=
  if x.address.length ≠ 32 then (false, w)
  else
    let acc := { x.acc with storage := x.tokens.foldl (fun m p => m.insert p.1 p.2) x.acc.storage }
    if validAccount x.address acc then (true, w.put x.address acc) else (false, w)

/-- the accounts of a `setState` step; stops at the first error -/
def setAccounts (w : MockWorld) : List SetAccount → Bool × MockWorld
  | [] => (true, w)
  | x :: rest =>
    match setAccount w x with
    | (true, w) => setAccounts w rest
    | (false, w) => (false, w)

end Arwen.Mock
