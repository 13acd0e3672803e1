import Verif.World.Builtins
/-
What the mock world owes to a call of a built-in function: which accounts the function is given, what a direct transfer of tokens
asks for, and which contracts are known as name servers.
-/
namespace Arwen.Spec

/-- the account that a built-in function is given for an address: the one at the address if it is in the own shard, else nothing -/
inductive GivenAccount (w : Mock.MockWorld) (a : Addr) : Option Addr → Prop
  | here (acc : Mock.WAcc) : w.accts.get? a = some acc → acc.shard = w.selfShard → GivenAccount w a (some a)
  | elsewhere (acc : Mock.WAcc) : w.accts.get? a = some acc → acc.shard ≠ w.selfShard → GivenAccount w a none

/-- the shortest big-endian form of a number -/
def ShortForm (n : Nat) (b : Bytes) : Prop := bytesToNat b = n ∧ b.head? ≠ some 0

/-- The call of a built-in function by which a transfer of tokens is made. Fungible tokens go by a call of the receiver with the token
and the amount. Tokens with a nonce go by a call that the sender makes to itself, with the token, its nonce, the amount and the
receiver. -/
structure MakesTransfer (sender receiver token : Bytes) (nonce : UInt64) (value : Int) (gas price : UInt64) (i : CallInput) :
    Prop where
  caller : i.vm.caller = sender
  price : i.vm.gasPrice = price
  gas : i.vm.gasProvided = gas
  /-- no gas is locked, no native value is sent -/
  clean : i.vm.gasLocked = 0 ∧ i.vm.callValue = 0 ∧ i.vm.esdt = [] ∧ i.allowInit = false
  fungible : nonce = 0 → i.recipient = receiver ∧ i.function = Mandos.ascii "ESDTTransfer".toList ∧
    ∃ amount, ShortForm value.natAbs amount ∧ i.vm.args = [token, amount]
  single : nonce ≠ 0 → i.recipient = sender ∧ i.function = Mandos.ascii "ESDTNFTTransfer".toList ∧
    ∃ number amount, ShortForm nonce.toNat number ∧ ShortForm value.natAbs amount ∧ i.vm.args = [token, number, amount, receiver]

/-- the address that a scenario writes as `sc:dns#` and the last byte in hexadecimal: eight zeros, `dns`, underscores, the byte -/
def dnsAddress (k : UInt8) : Bytes := List.replicate 8 0 ++ Mandos.ascii ['d', 'n', 's'] ++ List.replicate 20 95 ++ [k]

/-- what an account holds of a token, as its storage says: nothing under the key of the token means that it holds none of it -/
def HoldsToken (C : Mock.TokenCodec) (st : AMap Bytes Bytes) (name : Bytes) (nonce : UInt64) (t : Mock.TokenRec) : Prop :=
  let stored := (st.get? (Mandos.ascii "ELRONDesdt".toList ++ name ++ natToBytes nonce.toNat)).getD []
  if stored = [] then t.value = 0 else C.untoken stored = some t

end Arwen.Spec
