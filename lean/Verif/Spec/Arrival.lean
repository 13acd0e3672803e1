import Verif.Host.Compare
import Verif.Eei.Run
import Verif.Spec.Memory
/-
Calls between contracts, as laid out in the memory of the caller.
-/
namespace Arwen.Spec
variable {χ A : Type}

/-- the memory holds the bytes at the offset -/
def Holds (mem : Bytes) (off : Int32) (data : Bytes) : Prop :=
  data = [] ∨ (0 ≤ off.toInt ∧ off.toInt.toNat + data.length ≤ mem.length ∧ bytesFrom mem off.toInt.toNat data.length = data)

/-- a length as four bytes, the low one first -/
def lengthBytes (n : Nat) : Bytes := [UInt8.ofNat n, UInt8.ofNat (n / 256), UInt8.ofNat (n / 65536), UInt8.ofNat (n / 16777216)]

/-- arguments in the memory: one after the other, their number given, and their lengths in a table of their own -/
structure ArgsAt (mem : Bytes) (num lenOff dataOff : Int32) (args : List Bytes) : Prop where
  num : num.toInt = args.length
  lengths : Holds mem lenOff (args.flatMap fun a => lengthBytes a.length)
  data : Holds mem dataOff args.flatten

/-- a call in the memory: the address of the contract (32 bytes), the name of the function, the arguments -/
structure CallAt (mem : Bytes) (destOff fOff fLen num lenOff dataOff : Int32) (dest : Addr) (f : Bytes) (args : List Bytes) : Prop where
  destLen : dest.length = 32
  dest : Holds mem destOff dest
  nameLen : fLen.toInt = f.length
  name : Holds mem fOff f
  args : ArgsAt mem num lenOff dataOff args

/-- an amount in the memory: 32 bytes, the high one first -/
def AmountAt (mem : Bytes) (off : Int32) (v : Nat) : Prop := ∃ b : Bytes, b.length = 32 ∧ Holds mem off b ∧ v = bytesToNat b

/-- the number of bytes of all arguments -/
def totalLength (args : List Bytes) : Nat := (args.map List.length).sum

/-- a call of a contract by a contract -/
def aCall (sender : Addr) (value : Int) (gas : UInt64) (dest : Addr) (f : Bytes) (args : List Bytes) : CallInput :=
  { vm := { caller := sender, args := args, callValue := value, gasPrice := 0, gasProvided := gas }, recipient := dest, function := f }

/-- the answer to the contract that made a call: 0, or 1 and the end of the execution -/
def callAnswer (E : Env χ A) (e : Option Err) : M χ A Int64 := fun s =>
  match e with
  | none => (.ok 0, s)
  | some e => (.ok 1, s.faulted E e)

/-- The state `t` is `s`, except that the running contract has paid: nothing else has changed, its memory included. The counter of a
contract stops at the greatest amount it can hold. -/
structure OnlyPaid (s t : St χ A) (i : Nat) (gas : Nat) : Prop where
  rest : t = { s with insts := t.insts }
  others : ∀ j, j ≠ i → t.insts j = s.insts j
  running : t.insts i = { s.insts i with points := (t.insts i).points }
  points : (t.insts i).points.toNat = min ((s.insts i).points.toNat + gas) (2 ^ 63 - 1)

/-- the gas of a call: at most what is left -/
def callGas (s : St χ A) (limit : Int64) : UInt64 := if s.gasLeft < limit.toUInt64 then s.gasLeft else limit.toUInt64

/-- what a running contract can see of its call is what the input says -/
def sees (i : CallInput) (s : St χ A) : Bool :=
  decide (s.rt.cur.scAddress = i.recipient ∧ s.rt.cur.vmInput.caller = i.vm.caller ∧ s.rt.cur.vmInput.args = i.vm.args ∧
    s.rt.cur.callFunction = i.function ∧ s.rt.cur.vmInput.callValue = i.vm.callValue ∧ s.rt.cur.vmInput.esdt = i.vm.esdt ∧
    s.rt.cur.vmInput.callType = i.vm.callType)

/-- an environment with a guard in front of every API function: if the calling contract could see anything else, the function panics -/
def watched (E : Env χ A) (i : CallInput) : Env χ A := E.withApi (guardApi E (sees i))

end Arwen.Spec
