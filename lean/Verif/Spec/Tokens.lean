import Verif.Host.Exec
/-
Tokens sent by contracts, as a contract developer and a reader of receipts see them. Gas amounts are natural numbers.
-/
namespace Arwen.Spec
variable {χ A : Type}

/-- The gas asked by the chain for a transfer: what it did not give back, without the gas it put into messages. -/
def tokenPrice (provided : Nat) (o : VMOutput) : Nat :=
  provided - o.gasRemaining.toNat - (o.accounts.entries.map fun p => (p.2.transfers.map fun t => t.gasLimit.toNat).sum).sum

/-- The request to the chain. Fungible tokens (nonce 0) are sent to the receiver; others are a request of the sender to itself
that names the receiver last. -/
def tokenRequest (s : St χ A) (dest sender : Addr) (token : Bytes) (nonce : UInt64) (value : Int) (runs : Bool) : CallInput where
  recipient := if nonce = 0 then dest else sender
  function := if nonce = 0 then "ESDTTransfer".toUTF8.data.toList else "ESDTNFTTransfer".toUTF8.data.toList
  vm := {
    caller := sender
    args := if nonce = 0 then [token, natToBytes value.natAbs] else [token, natToBytes nonce.toNat, natToBytes value.natAbs, dest]
    callValue := 0
    callType := if runs then .esdtTransferAndExecute else .directCall
    gasPrice := s.rt.cur.vmInput.gasPrice
    gasProvided := s.gasLeft
    gasLocked := 0 }

/-- `f@aa@bb` -/
def callText (f : Bytes) (args : List Bytes) : Bytes := f ++ args.flatMap fun a => 0x40 :: hexEncode a

/-- The message to the receiver: the transfer, and the call if there is one. For tokens that are not fungible and leave the shard it is
the message that the chain made. -/
def tokenMessage (dest : Addr) (token : Bytes) (nonce : UInt64) (value : Int) (ci : Option CallInput) (same : Bool) (o : VMOutput) : Bytes :=
  let call := match ci with
    | none => []
    | some i => i.function :: i.vm.args
  if nonce = 0 then callText "ESDTTransfer".toUTF8.data.toList ([token, natToBytes value.natAbs] ++ call)
  else if same then
    callText "ESDTNFTTransfer".toUTF8.data.toList ([token, natToBytes nonce.toNat, natToBytes value.natAbs, dest] ++ call)
  else match (o.accounts.get? dest).map OutAcc.transfers with
    | some [t] => callText t.data call
    | _ => callText "ESDTNFTTransfer".toUTF8.data.toList ([token, natToBytes nonce.toNat, natToBytes value.natAbs] ++ call)

/-- `o'` is `o` with one more transfer, to `dest`, and more logs -/
def OneTransfer (o o' : VMOutput) (dest : Addr) (x : OutTransfer) (logs : List LogEntry) : Prop :=
  o' = { o with accounts := o'.accounts, logs := o.logs ++ logs } ∧
  ∀ a, o'.accounts.get? a =
    if a = dest then some (let acc := (o.accounts.get? a).getD {}; { acc with transfers := acc.transfers ++ [x] }) else o.accounts.get? a

/-! ### Tokens sent by calling the built-in function -/

/-- who gets the tokens: the recipient, or the fourth argument of a request of a sender to itself -/
def receiver (i : CallInput) : Option Addr :=
  if i.function = "ESDTNFTTransfer".toUTF8.data.toList ∧ i.vm.caller = i.recipient then i.vm.args[3]? else some i.recipient

/-- the tokens that a request names -/
def tokensOf (i : CallInput) : List EsdtTransfer :=
  if i.function = "ESDTTransfer".toUTF8.data.toList then
    match i.vm.args with
    | name :: v :: _ => [{ name := name, value := bytesToNat v, tokenType := 0, nonce := 0 }]
    | _ => []
  else if i.function = "ESDTNFTTransfer".toUTF8.data.toList then
    match i.vm.args with
    | name :: n :: v :: _ => [{ name := name, value := bytesToNat v, tokenType := 1, nonce := UInt64.ofNat (bytesToNat n) }]
    | _ => []
  else []

/-- After a request `i`, that left the chain in `w` with the output `o`, the contract call `j` has to be made: the request was granted, the
receiver is a contract in the shard of the sender, and there is exactly one message for it. The call is the one of the message, with the
message's gas, in the name of the sender, and shows the tokens. -/
structure Follows (E : Env χ A) (w : χ) (i : CallInput) (o : VMOutput) (j : CallInput) : Prop where
  granted : o.returnCode = .ok
  receiver : receiver i = some j.recipient
  here : E.hook.shardOf w i.vm.caller = E.hook.shardOf w j.recipient
  contract : E.hook.isSmartContract w j.recipient = true
  message : ∃ acc x, o.accounts.get? j.recipient = some acc ∧ acc.transfers = [x] ∧ parseCallData x.data = some (j.function, j.vm.args) ∧
    j.vm.gasProvided = x.gasLimit ∧ j.vm.gasLocked = x.gasLocked
  input : j.vm = { caller := i.vm.caller, args := j.vm.args, callValue := 0, callType := i.vm.callType, gasPrice := i.vm.gasPrice,
                   gasProvided := j.vm.gasProvided, gasLocked := j.vm.gasLocked, originalTxHash := i.vm.originalTxHash,
                   currentTxHash := i.vm.currentTxHash, esdt := tokensOf i }
  plain : j.allowInit = false

/-- where a transfer within the shard is recorded -/
def shownAt (i : CallInput) : Option Addr :=
  if i.function = "ESDTTransfer".toUTF8.data.toList then some i.recipient
  else if i.function = "ESDTNFTTransfer".toUTF8.data.toList ∧ i.vm.args.length = 4 then i.vm.args[3]?
  else none

/-- the record -/
def shownTransfer (i : CallInput) : OutTransfer :=
  { value := 0, data := callText i.function i.vm.args, callType := i.vm.callType, sender := i.vm.caller }

end Arwen.Spec
