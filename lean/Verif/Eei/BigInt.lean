import Verif.Eei.Elrond
import Verif.BigInt.TwosComplement
/-
Model of `arwen/elrondapi/bigIntOps.go` and `smallIntOps.go`. The operations of `math/big` are the operations of `Int`;
results are computed from the operands before the destination is written (`math/big` allows aliasing).
-/
namespace Arwen
namespace Eei
variable {χ A : Type} (E : Env χ A)

/-- `big.Int.BitLen` -/
def bitLen (v : Int) : Nat := if v = 0 then 0 else v.natAbs.log2 + 1

/-- `useExtraGasForOperations` (`bigIntOps.go` 255-265) -/
def extraK : List Int → P χ A → P χ A
  | [], k => k
  | v :: vs, k =>
    if bitLen v / 8 > 32 then
      useK (fun s => mulU64 (UInt64.ofNat (bitLen v / 8)) s.met.sched.dataCopyPerByte) (extraK vs k)
    else extraK vs k

/-! ### Arithmetic -/

/-- operations with two operands (`bigIntOps.go` 590-698, 771-822) -/
inductive BinOp
  | add | sub | mul | tdiv | tmod | ediv | emod | and | or | xor
  deriving DecidableEq, Repr

/-- price: only `Mul` and `TDiv` use their own (`bigIntOps.go` 594, 607, 620, 633, 651, 669, 687, 775, 793, 811) -/
def BinOp.cost : BinOp → ApiCost
  | mul => .bigIntMul
  | tdiv => .bigIntTDiv
  | _ => .bigIntSub

/-- the values whose size is charged -/
def BinOp.charged (op : BinOp) (d a b : Int) : List Int :=
  match op with
  | and | or | xor => [a, b]
  | _ => [d, a, b]

/-- the result or the fault -/
def BinOp.eval (op : BinOp) (a b : Int) : Except Err Int :=
  match op with
  | add => .ok (a + b)
  | sub => .ok (a - b)
  | mul => .ok (a * b)
  | tdiv => if b = 0 then .error .divZero else .ok (a.tdiv b)
  | tmod => if b = 0 then .error .divZero else .ok (a.tmod b)
  | ediv => if b = 0 then .error .divZero else .ok (a / b)
  | emod => if b = 0 then .error .divZero else .ok (a % b)
  | and => if a < 0 ∨ b < 0 then .error .bitwiseNegative else .ok ((a.toNat &&& b.toNat : Nat) : Int)
  | or => if a < 0 ∨ b < 0 then .error .bitwiseNegative else .ok ((a.toNat ||| b.toNat : Nat) : Int)
  | xor => if a < 0 ∨ b < 0 then .error .bitwiseNegative else .ok ((a.toNat ^^^ b.toNat : Nat) : Int)

/-- `bigIntOps.go` 590-698, 771-822 -/
def binK (op : BinOp) (d x y : Int32) : P χ A :=
  gasK op.cost <| .op (.bigGet d) fun (vd : Int) => .op (.bigGet x) fun (a : Int) => .op (.bigGet y) fun (b : Int) =>
  extraK (op.charged vd a b) <|
  match op.eval a b with
  | .error e => faultK e 0
  | .ok v => .op (.bigSet d v) fun _ => .pure 0

/-- operations with one operand (`bigIntOps.go` 701-724, 753-768) -/
inductive UnOp
  | abs | neg | not
  deriving DecidableEq, Repr

def UnOp.eval (op : UnOp) (a : Int) : Except Err Int :=
  match op with
  | abs => .ok a.natAbs
  | neg => .ok (-a)
  | not => if a < 0 then .error .bitwiseNegative else .ok (-a - 1)

/-- `bigIntOps.go` 701-724, 753-768 -/
def unK (op : UnOp) (d x : Int32) : P χ A :=
  gasK .bigIntSub <| .op (.bigGet d) fun (vd : Int) => .op (.bigGet x) fun (a : Int) => extraK [vd, a] <|
  match op.eval a with
  | .error e => faultK e 0
  | .ok v => .op (.bigSet d v) fun _ => .pure 0

/-- shifts (`bigIntOps.go` 825-860) -/
inductive ShiftOp
  | shr | shl
  deriving DecidableEq, Repr

def ShiftOp.eval (op : ShiftOp) (a : Int) (bits : Int32) : Except Err Int :=
  if a < 0 ∨ bits < 0 then .error .shiftNegative
  else .ok (match op with
    | shr => ((a.toNat >>> bits.toNatClampNeg : Nat) : Int)
    | shl => ((a.toNat <<< bits.toNatClampNeg : Nat) : Int))

/-- `bigIntOps.go` 825-860; the size of the result is charged after it is computed -/
def shiftK (op : ShiftOp) (d x : Int32) (bits : Int32) : P χ A :=
  gasK .bigIntSub <| .op (.bigGet d) fun (_ : Int) => .op (.bigGet x) fun (a : Int) => extraK [a] <|
  match op.eval a bits with
  | .error e => faultK e 0
  | .ok v => .op (.bigSet d v) fun _ => extraK [v] (.pure 0)

/-- `bigIntOps.go` 727-737 -/
def bigSign (x : Int32) : P χ A := gasK .bigIntSign <| .op (.bigGet x) fun (a : Int) => extraK [a] (.pure (Int64.ofInt a.sign))
/-- `bigIntOps.go` 740-750 -/
def bigCmp (x y : Int32) : P χ A := gasK .bigIntCmp <| .op (.bigGet x) fun (a : Int) => .op (.bigGet y) fun (b : Int) =>
  extraK [a, b] (.pure (if a < b then -1 else if a = b then 0 else 1))

/-! ### Conversions -/

/-- write a value under a handle (`GetOne` and `Set`) -/
def putK (h : Int32) (v : Int) (k : P χ A) : P χ A := .op (.bigGet h) fun _ => .op (.bigSet h v) fun _ => k

/-- `bigIntOps.go` 268-303; a negative index panics -/
def bigGetArgument (signed : Bool) (id d : Int32) : P χ A :=
  gasK (if signed then .bigIntGetSignedArgument else .bigIntGetUnsignedArgument) <| .ask fun s =>
  if Int32.ofNat s.rt.cur.vmInput.args.length ≤ id then .pure 0
  else .op (.bigGet d) fun _ =>
    match argAt s.rt.cur.vmInput.args id with
    | none => .panic
    | some b => .op (.bigSet d (if signed then twosFromBytes b else bytesToNat b)) fun _ => .pure 0
/-- `bigIntOps.go` 306-329: the sign is dropped; a memory fault answers 0 -/
def bigStorageStore (keyOff keyLen x : Int32) : P χ A :=
  gasK .bigIntStorageStoreUnsigned <| loadK keyOff keyLen 0 fun key => .op (.bigGet x) fun (v : Int) =>
  .op (.setStorage key (absBytes v)) statusK
/-- `bigIntOps.go` 332-352 -/
def bigStorageLoad (keyOff keyLen d : Int32) : P χ A :=
  gasK .bigIntStorageLoadUnsigned <| loadK keyOff keyLen 0 fun key => .op (.getStorage key) fun (b : Bytes) =>
  putK d (bytesToNat b) (.pure (lenRes b))
/-- `bigIntOps.go` 355-365 -/
def bigGetCallValue (d : Int32) : P χ A := gasK .bigIntGetCallValue <| .op (.bigGet d) fun _ => .ask fun s =>
  .op (.bigSet d s.rt.cur.vmInput.callValue) fun _ => .pure 0
/-- `bigIntOps.go` 368-379 -/
def bigGetESDTCallValue (d : Int32) : P χ A := gasK .bigIntGetCallValue <| .op (.bigGet d) fun _ => .ask fun s =>
  .op (.bigSet d (firstEsdt s).value) fun _ => .pure 0
/-- `bigIntOps.go` 382-400 -/
def bigGetExternalBalance (addrOff d : Int32) : P χ A :=
  gasK .bigIntGetExternalBalance <| loadK addrOff 32 0 fun a => .op (.getBalance a) fun (b : Int) =>
  putK d b.natAbs (.pure 0)
/-- `bigIntOps.go` 403-421 -/
def bigGetESDTExternalBalance (addrOff tokOff tokLen : Int32) (nonce : Int64) (d : Int32) : P χ A :=
  gasK .bigIntGetExternalBalance <| esdtDataK E addrOff tokOff tokLen nonce fun t => putK d t.value (.pure 0)
/-- `bigIntOps.go` 424-432 -/
def bigNew (v : Int64) : P χ A := gasK .bigIntNew <| .op (.bigPut v) fun (h : Int32) => .pure h.toInt64
/-- bytes of a value, unsigned (of the absolute value) or two's complement -/
def bigBytes (signed : Bool) (v : Int) : Bytes := if signed then twosToBytes v else absBytes v
/-- `bigIntOps.go` 435-460 -/
def bigByteLength (signed : Bool) (x : Int32) : P χ A :=
  gasK (if signed then .bigIntSignedByteLength else .bigIntUnsignedByteLength) <| .op (.bigGet x) fun (v : Int) =>
  .pure (lenRes (bigBytes signed v))
/-- `bigIntOps.go` 463-506 -/
def bigGetBytes (signed : Bool) (x off : Int32) : P χ A :=
  gasK (if signed then .bigIntGetSignedBytes else .bigIntGetUnsignedBytes) <| .op (.bigGet x) fun (v : Int) =>
  let b := bigBytes signed v
  storeK off b 0 <| copyK (lenU b) (.pure (lenRes b))
/-- `bigIntOps.go` 509-548 -/
def bigSetBytes (signed : Bool) (d off len : Int32) : P χ A :=
  gasK (if signed then .bigIntSetSignedBytes else .bigIntSetUnsignedBytes) <| loadK off len 0 fun b =>
  putK d (if signed then twosFromBytes b else bytesToNat b) <| copyK (lenU b) (.pure 0)
/-- `bigIntOps.go` 551-563 -/
def bigIsInt64 (x : Int32) : P χ A := gasK .bigIntIsInt64 <| .op (.bigGet x) fun (v : Int) => .pure (boolRes (isInt64 v))
/-- `bigIntOps.go` 566-575 -/
def bigGetInt64 (x : Int32) : P χ A := gasK .bigIntGetInt64 <| .op (.bigGet x) fun (v : Int) => .pure (Int64.ofInt v)
/-- `bigIntOps.go` 578-587 -/
def bigSetInt64 (d : Int32) (v : Int64) : P χ A := gasK .bigIntSub <| putK d v.toInt (.pure 0)
/-- `bigIntOps.go` 863-895 -/
def bigFinish (signed : Bool) (x : Int32) : P χ A :=
  gasK (if signed then .bigIntFinishSigned else .bigIntFinishUnsigned) <| .op (.bigGet x) fun (v : Int) =>
  .op (.finish (bigBytes signed v)) fun _ => persistK (lenU (bigBytes signed v)) (.pure 0)

/-! ### 64-bit integers (`smallIntOps.go`) -/

/-- value of bytes, unsigned or two's complement -/
def decodeBytes (signed : Bool) (b : Bytes) : Int := if signed then twosFromBytes b else bytesToNat b
/-- range check of a decoded value -/
def smallFits (signed : Bool) (v : Int) : Bool := if signed then isInt64 v else isUint64 v
/-- bytes of a 64-bit value: two's complement, or as `uint64` -/
def smallBytes (signed : Bool) (v : Int64) : Bytes := if signed then twosToBytes v.toInt else natToBytes v.toUInt64.toNat

/-- `smallIntOps.go` 106-149 -/
def smallGetArgument (signed : Bool) (id : Int32) : P χ A := gasK .int64GetArgument <| .ask fun s =>
  if id < 0 ∨ id ≥ Int32.ofNat s.rt.cur.vmInput.args.length then faultK .argIndexOutOfRange 0
  else match argAt s.rt.cur.vmInput.args id with
    | none => .panic
    | some b =>
      if smallFits signed (decodeBytes signed b) then .pure (Int64.ofInt (decodeBytes signed b)) else faultK .argOutOfRange 0
/-- `smallIntOps.go` 152-173 -/
def smallFinish (signed : Bool) (v : Int64) : P χ A := gasK .int64Finish <| .op (.finish (smallBytes signed v)) fun _ => .pure 0
/-- `smallIntOps.go` 176-219 -/
def smallStorageStore (signed : Bool) (keyOff keyLen : Int32) (v : Int64) : P χ A :=
  gasK .int64StorageStore <| loadK keyOff keyLen (-1) fun key => .op (.setStorage key (smallBytes signed v)) statusK
/-- `smallIntOps.go` 222-267 -/
def smallStorageLoad (signed : Bool) (keyOff keyLen : Int32) : P χ A :=
  gasK .int64StorageLoad <| loadK keyOff keyLen 0 fun key => .op (.getStorage key) fun (b : Bytes) =>
  if smallFits signed (decodeBytes signed b) then .pure (Int64.ofInt (decodeBytes signed b))
  else faultK .storageValueOutOfRange 0

end Eei
end Arwen
