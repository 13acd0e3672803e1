import Verif.Ctx.Runtime
/-
Building blocks of the API functions (`arwen/elrondapi`, `arwen/cryptoapi`), in continuation style: an API function is a
program (`Free`) over the commands of the host. A function without result answers 0; an `int32` result is sign-extended.
All `…APIErrorShouldFailExecution()` answer true (`arwen/contexts/runtime.go` 687-705), so `WithFault` always fails the execution.
-/
namespace Arwen
namespace Eei
variable {χ A : Type} (E : Env χ A)

/-- an API function -/
abbrev P (χ A : Type) := Free χ A Int64

/-- `uint64(n)` of an `int32` -/
def len64 (n : Int32) : UInt64 := n.toInt64.toUInt64
/-- `int32(len(b))`, as a result -/
def lenRes (b : Bytes) : Int64 := (Int32.ofNat b.length).toInt64
/-- `uint64(len(b))` -/
def lenU (b : Bytes) : UInt64 := UInt64.ofNat b.length
/-- result of a truth value (`arwen.BooleanToInt`, `arwen/helpers.go`) -/
def boolRes (b : Bool) : Int64 := if b then 1 else 0
/-- `int32(status)` -/
def statusRes : StorageStatus → Int64
  | .unchanged => 0 | .modified => 1 | .added => 2 | .deleted => 3

/-- `UseGas` of an amount computed from the state -/
def useK (g : St χ A → UInt64) (k : P χ A) : P χ A := .ask fun s => .op (.useGas (g s)) fun _ => k
/-- `UseGas` of a price of the schedule -/
def gasK (c : ApiCost) (k : P χ A) : P χ A := useK (fun s => s.met.sched.api c) k
/-- `UseGas(MulUint64(DataCopyPerByte, n))` -/
def copyK (n : UInt64) (k : P χ A) : P χ A := useK (fun s => mulU64 s.met.sched.dataCopyPerByte n) k
/-- `UseGas(MulUint64(PersistPerByte, n))` -/
def persistK (n : UInt64) (k : P χ A) : P χ A := useK (fun s => mulU64 s.met.sched.persistPerByte n) k
/-- `WithFault(err)` with a non-nil error (`arwen/helpers.go` 179-198), then return `ret`. -/
def faultK (e : Err) (ret : Int64) : P χ A :=
  .ask fun s => .op (.useGas s.gasLeft) fun _ => .op (.failExecution e) fun _ => .pure ret
/-- fault if there is an error, else go on -/
def orFaultK (e : Option Err) (ret : Int64) (k : P χ A) : P χ A :=
  match e with
  | some e => faultK e ret
  | none => k
/-- `MemLoad`, handing the error to the continuation -/
def loadEK (off len : Int32) (k : Except Err Bytes → P χ A) : P χ A := .ask fun s =>
  match memLoad s off len with
  | .ok r => k r
  | _ => .panic
/-- `MemLoad` with fault -/
def loadK (off len : Int32) (ret : Int64) (k : Bytes → P χ A) : P χ A := loadEK off len fun r =>
  match r with
  | .error e => faultK e ret
  | .ok b => k b
/-- `MemStore` with fault -/
def storeK (off : Int32) (data : Bytes) (ret : Int64) (k : P χ A) : P χ A :=
  .op (.memStore off data) fun e => orFaultK e ret k
/-- `MemStore` with fault as the last step -/
def storeEndK (off : Int32) (data : Bytes) : P χ A := storeK off data 0 (.pure 0)

/-! ### Reading arguments from memory (`elrondei.go` 2950-3015) -/

/-- the first four bytes as a little-endian `uint32`, as `int32` -/
def int32LE : Bytes → Int32
  | [a, b, c, d] => (UInt32.ofNat (a.toNat + 256 * b.toNat + 65536 * c.toNat + 16777216 * d.toNat)).toInt32
  | _ => 0

/-- `createInt32Array` (`elrondei.go` 3003-3013): `n` integers, missing ones 0 (the data may be shorter, see `argsFromMem`). -/
def int32Array (raw : Bytes) : Nat → List Int32
  | 0 => []
  | n + 1 => int32LE (raw.take 4) :: int32Array (raw.drop 4) n

/-- `MemLoadMultiple` (`arwen/contexts/runtime.go` 877-895); the offset is advanced without an overflow check. -/
def memLoadMultiple (s : St χ A) : Int32 → List Int32 → Res (Except Err (List Bytes))
  | _, [] => .ok (.ok [])
  | off, n :: rest =>
    match memLoad s off n with
    | .ok (.ok b) =>
      match memLoadMultiple s (off + n) rest with
      | .ok (.ok bs) => .ok (.ok (b :: bs))
      | r => r
    | .ok (.error e) => .ok (.error e)
    | .panic => .panic
    | .oof => .oof

/-- error of a negative argument count -/
def errNegativeCount : Err := .other 4

/-- `getArgumentsFromMemory` (`elrondei.go` 2969-3001): the arguments and their total length (wrapping).
`numArguments*4` wraps as well, so less length data than `numArguments` integers may be read. -/
def argsFromMem (s : St χ A) (num lenOff dataOff : Int32) : Res (Except Err (List Bytes × Int32)) :=
  if num < 0 then .ok (.error errNegativeCount)
  else
    match memLoad s lenOff (num * 4) with
    | .ok (.error e) => .ok (.error e)
    | .ok (.ok raw) =>
      let lens := int32Array raw num.toNatClampNeg
      match memLoadMultiple s dataOff lens with
      | .ok (.error e) => .ok (.error e)
      | .ok (.ok args) => .ok (.ok (args, lens.foldl (· + ·) 0))
      | .panic => .panic
      | .oof => .oof
    | .panic => .panic
    | .oof => .oof

/-- `getArgumentsFromMemory`, handing the error to the continuation -/
def argsEK (num lenOff dataOff : Int32) (k : Except Err (List Bytes × Int32) → P χ A) : P χ A := .ask fun s =>
  match argsFromMem s num lenOff dataOff with
  | .ok r => k r
  | _ => .panic

/-- the pattern of `createContract` and `upgradeContract` (`elrondei.go` 1371-1385): arguments, gas for their length
(0 in case of an error), then the fault -/
def argsGasK (num lenOff dataOff : Int32) (ret : Int64) (k : List Bytes → P χ A) : P χ A :=
  argsEK num lenOff dataOff fun r =>
    match r with
    | .error e => copyK 0 (faultK e ret)
    | .ok (args, n) => copyK (len64 n) (k args)

/-! ### Arguments of a contract call (`elrondei.go` 845-950) -/

/-- `indirectContractCallArguments` (`elrondei.go` 829-835); the value is 0 if none is read -/
structure CallArgs where
  dest : Addr
  value : Int
  function : Bytes
  args : List Bytes
  actualLen : Int32

/-- `extractIndirectContractCallArguments` (`elrondei.go` 880-930) with fault. An error while reading the arguments is
dropped: the call goes on without arguments. -/
def extractK (destOff : Int32) (valueOff : Option Int32) (fOff fLen num lenOff dataOff : Int32)
    (k : CallArgs → P χ A) : P χ A :=
  loadK destOff 32 1 fun dest =>
  let rest (value : Int) : P χ A :=
    loadK fOff fLen 1 fun f =>
    argsEK num lenOff dataOff fun r =>
      match r with
      | .error _ => copyK 0 (k ⟨dest, value, f, [], 0⟩)
      | .ok (args, n) => copyK (len64 n) (k ⟨dest, value, f, args, n⟩)
  match valueOff with
  | none => rest 0
  | some v => loadK v 32 1 fun vb => rest (bytesToNat vb)

/-- the input made by `prepareIndirectContractCallInput` (`elrondei.go` 2938-2967) -/
def callInput (s : St χ A) (sender : Addr) (value : Int) (gasLimit : Int64) (a : CallArgs) : CallInput :=
  { vm := { caller := sender, args := a.args, callValue := value, gasPrice := 0, gasProvided := s.boundGasLimit gasLimit },
    recipient := a.dest, function := a.function }

/-- `isBuiltInCall` (`elrondei.go` 603-607); the parser answers an empty name for unparsable data. -/
def isBuiltInCall (data : Bytes) : Bool := E.isBuiltin (((parseCallData data).map Prod.fst).getD [])

/-- `getFirstESDTTransferIfExist` (`elrondei.go` 104-112) -/
def firstEsdt (s : St χ A) : EsdtTransfer := s.rt.cur.vmInput.esdt.headD { value := 0, name := [] }

/-- bytes of the absolute value (`big.Int.Bytes`) -/
def absBytes (v : Int) : Bytes := natToBytes v.natAbs

/-- does a value fit (`IsInt64`, `IsUint64`) -/
def isInt64 (v : Int) : Bool := -9223372036854775808 ≤ v && v ≤ 9223372036854775807
def isUint64 (v : Int) : Bool := 0 ≤ v && v < 18446744073709551616

/-- argument by index, as in `args[id]` after the bounds check; a negative index panics (`none`) -/
def argAt (args : List Bytes) (id : Int32) : Option Bytes := if id < 0 then none else args[id.toNatClampNeg]?

end Eei
end Arwen
