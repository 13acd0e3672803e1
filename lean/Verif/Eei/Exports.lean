import Verif.State.Machine
/-
The functions that contracts export: how the host collects them from a native instance, and how it calls them
(`wasmer/instance_helpers.go`, `wasmer/function_wrapper_helpers.go`, `wasmer/value.go`, `wasmer/instance.go`).

Simplifications: the native side is what its C functions answer (`Native`, `NativeExport`); the pointers to the arrays of inputs and
outputs are the arrays themselves; wrapped errors are kept without the text of the last native error.
-/
namespace Arwen
namespace Exporting

/-- `wasmer_value_tag` (`wasmer/wasmer.h` 109-126) -/
inductive Tag
  | i32 | i64 | f32 | f64
  deriving DecidableEq, Repr

/-- `wasmer_value_t` (`wasmer/wasmer.h` 220-229): the union is its eight bytes, as a number -/
structure Slot where
  tag : Tag
  value : UInt64
  deriving DecidableEq, Repr

/-- what `make` fills arrays with: the first tag, and zeros -/
def Slot.zero : Slot := ⟨.i32, 0⟩

/-- read the union as an `int32`: the four low bytes (`wasmer/function_wrapper_helpers.go` 134-136) -/
def Slot.getI32 (s : Slot) : Int32 := s.value.toUInt32.toInt32

/-- read the union as an `int64` (`wasmer/function_wrapper_helpers.go` 138-140) -/
def Slot.getI64 (s : Slot) : Int64 := s.value.toInt64

/-- write the union through a pointer to `int32`: only the four low bytes change (`wasmer/function_wrapper_helpers.go` 149-151) -/
def Slot.setI32 (s : Slot) (v : Int32) : Slot := ⟨.i32, s.value &&& 0xFFFFFFFF00000000 ||| v.toUInt32.toUInt64⟩

/-- write the union through a pointer to `int64` (`wasmer/function_wrapper_helpers.go` 183-185) -/
def Slot.setI64 (_ : Slot) (v : Int64) : Slot := ⟨.i64, v.toUInt64⟩

/-- `ValueType` (`wasmer/value.go` 7-22) -/
inductive ValueType
  | i32 | i64 | void
  deriving DecidableEq, Repr

/-- `Value` (`wasmer/value.go` 24-31) -/
structure Value where
  value : UInt64
  ty : ValueType
  deriving DecidableEq, Repr

/-- `I32` (`wasmer/value.go` 33-39): the conversion extends the sign -/
def Value.ofI32 (v : Int32) : Value := ⟨v.toInt64.toUInt64, .i32⟩

/-- `I64` (`wasmer/value.go` 41-47) -/
def Value.ofI64 (v : Int64) : Value := ⟨v.toUInt64, .i64⟩

/-- `Void` (`wasmer/value.go` 49-55) -/
def Value.void : Value := ⟨0, .void⟩

/-- `ToI32` (`wasmer/value.go` 62-66) -/
def Value.toI32 (v : Value) : Int32 := v.value.toUInt32.toInt32

/-- `ToI64` (`wasmer/value.go` 68-72) -/
def Value.toI64 (v : Value) : Int64 := v.value.toInt64

/-- the arguments that Go code may give (`interface{}`); `int` and `uint` have 64 bits; `other` is a value of any other type -/
inductive GoArg
  | int8 (v : Int8) | uint8 (v : UInt8) | int16 (v : Int16) | uint16 (v : UInt16)
  | int32 (v : Int32) | uint32 (v : UInt32) | int64 (v : Int64) | uint64 (v : UInt64)
  | int (v : Int64) | uint (v : UInt64)
  | float32 (bits : UInt32) | float64 (bits : UInt64)
  | value (v : Value)
  | other
  deriving DecidableEq, Repr

/-- the errors of a call: `ExportedFunctionError` (`wasmer/instance.go` 30-36, 46-50), or that the native call failed
(`wasmer/instance_helpers.go` 150-153) -/
inductive CallError
  | exported (functionName : Bytes) (message : String)
  | failed (functionName : Bytes)
  deriving DecidableEq, Repr

/-- `Error` (`wasmer/instance.go` 52-56): the message as it is. `fmt.Errorf` puts the name in (`wasmer/instance_helpers.go` 151). -/
def CallError.text : CallError → Bytes
  | .exported _ m => m.toUTF8.toList
  | .failed n => "Failed to call the `".toUTF8.toList ++ n ++ "` exported function.".toUTF8.toList

/-- what Go code ends with -/
inductive CallRes (α : Type)
  | ok (a : α)
  | error (e : CallError)
  | panic
  deriving DecidableEq, Repr

/-- the cases of `writeInt32ToWasmInputs` (`wasmer/function_wrapper_helpers.go` 153-178) -/
def toI32? : GoArg → Option Int32
  | .int8 v => some v.toInt32
  | .uint8 v => some v.toUInt32.toInt32
  | .int16 v => some v.toInt32
  | .uint16 v => some v.toUInt32.toInt32
  | .int32 v => some v
  | .int v => some v.toInt32
  | .uint v => some v.toUInt32.toInt32
  | .value v => if v.ty ≠ .i32 then none else some v.toI32
  | _ => none

/-- the cases of `writeInt64ToWasmInputs` (`wasmer/function_wrapper_helpers.go` 187-216) -/
def toI64? : GoArg → Option Int64
  | .int8 v => some v.toInt64
  | .uint8 v => some v.toUInt64.toInt64
  | .int16 v => some v.toInt64
  | .uint16 v => some v.toUInt64.toInt64
  | .int32 v => some v.toInt64
  | .uint32 v => some v.toUInt64.toInt64
  | .int64 v => some v
  | .int v => some v
  | .uint v => some v.toInt64
  | .value v => if v.ty ≠ .i64 then none else some v.toI64
  | _ => none

/-- message of an argument that cannot be converted (`wasmer/function_wrapper_helpers.go` 172, 177, 210, 215) -/
def castMessage (index : Nat) (ty : String) : String :=
  "Argument #" ++ toString (index + 1) ++ " of the `%s` exported function must be of type `" ++ ty ++
    "`, cannot cast given value to this type."

/-- `writeInt32ToWasmInputs` (`wasmer/function_wrapper_helpers.go` 148-181) -/
def writeInt32 (name : Bytes) (slots : List Slot) (index : Nat) (a : GoArg) : CallRes (List Slot) :=
  match slots[index]? with
  | none => .panic
  | some s =>
    match toI32? a with
    | none => .error (.exported name (castMessage index "i32"))
    | some v => .ok (slots.set index (s.setI32 v))

/-- `writeInt64ToWasmInputs` (`wasmer/function_wrapper_helpers.go` 183-219) -/
def writeInt64 (name : Bytes) (slots : List Slot) (index : Nat) (a : GoArg) : CallRes (List Slot) :=
  match slots[index]? with
  | none => .panic
  | some s =>
    match toI64? a with
    | none => .error (.exported name (castMessage index "i64"))
    | some v => .ok (slots.set index (s.setI64 v))

/-- the loop of `createWasmInputsFromArguments` (`wasmer/function_wrapper_helpers.go` 102-122) -/
def writeArguments (name : Bytes) (sig : List Tag) : Nat → List GoArg → List Slot → CallRes (List Slot)
  | _, [], slots => .ok slots
  | index, a :: rest, slots =>
    match sig[index]? with
    | none => .panic
    | some tag =>
      let r := match tag with
        | .i32 => writeInt32 name slots index a
        | .i64 => writeInt64 name slots index a
        | _ => .error (.exported name "Invalid arguments type when calling the `%s` exported function.")
      match r with
      | .ok slots => writeArguments name sig (index + 1) rest slots
      | .error e => .error e
      | .panic => .panic

/-- `createWasmInputsFromArguments` (`wasmer/function_wrapper_helpers.go` 94-125) -/
def createInputs (name : Bytes) (args : List GoArg) (arity : Nat) (sig : List Tag) : CallRes (List Slot) :=
  writeArguments name sig 0 args (List.replicate arity .zero)

/-- `validateGivenArguments` (`wasmer/function_wrapper_helpers.go` 41-55) -/
def validateArguments (name : Bytes) (args : List GoArg) (arity : Nat) : Option CallError :=
  let diff : Int := (arity : Int) - (args.length : Int)
  let rest := " exported function; Expect " ++ toString arity ++ " argument(s), given " ++ toString args.length ++ "."
  if diff > 0 then
    some (.exported name ("Missing " ++ toString diff ++ " argument(s) when calling the `%s`" ++ rest))
  else if diff < 0 then
    some (.exported name ("Given " ++ toString (-diff) ++ " extra argument(s) when calling the `%s`" ++ rest))
  else none

/-- `convertWasmOutputToValue` (`wasmer/function_wrapper_helpers.go` 127-146) -/
def convertOutput (name : Bytes) (arity : Nat) (outs : List Slot) : CallRes Value :=
  if arity > 0 then
    match outs[0]? with
    | none => .panic
    | some s =>
      match s.tag with
      | .i32 => .ok (.ofI32 s.getI32)
      | .i64 => .ok (.ofI64 s.getI64)
      | _ => .error (.exported name "Invalid output type retrieved from function `%s`.")
  else .ok .void

/-- a native instance: `wasmer_instance_call` runs the function of a name with inputs and a number of outputs; it may fail -/
structure Native (σ : Type) where
  call : Bytes → List Slot → Nat → σ → Option (List Slot) × σ

/-- a wrapped function, with what the closure keeps (`wasmer/instance_helpers.go` 114-132) -/
structure Wrapper where
  name : Bytes
  params : List Tag
  results : Nat
  deriving DecidableEq, Repr

/-- the wrapped function (`wasmer/instance_helpers.go` 132-160), `callWasmFunction` (`wasmer/function_wrapper_helpers.go` 57-92) -/
def Wrapper.call {σ : Type} (w : Wrapper) (N : Native σ) (args : List GoArg) (s : σ) : CallRes Value × σ :=
  match validateArguments w.name args w.params.length with
  | some e => (.error e, s)
  | none =>
    match createInputs w.name args w.params.length w.params with
    | .error e => (.error e, s)
    | .panic => (.panic, s)
    | .ok inputs =>
      match N.call w.name inputs w.results s with
      | (none, s') => (.error (.failed w.name), s')
      | (some outs, s') => (convertOutput w.name w.results outs, s')

/-- what a native module exports: a function of these types of parameters and this number of results (`none`: they cannot be read),
a memory (`none`: it cannot be read), or something else -/
inductive NativeKind
  | function (params : Option (List Tag)) (results : Option Nat)
  | memory (id : Option Nat)
  | other
  deriving DecidableEq, Repr

structure NativeExport where
  name : Bytes
  kind : NativeKind
  deriving DecidableEq, Repr

/-- `ExportedFunctionSignature` (`wasmer/instance.go` 38-43) -/
structure Arities where
  input : Nat
  output : Nat
  deriving DecidableEq, Repr

/-- `createExportedFunctionWrapper` (`wasmer/instance_helpers.go` 109-131), `getExportedFunctionSignature` and
`getExportedFunctionOutputArity` (`wasmer/function_wrapper_helpers.go` 8-39): `none` for their errors -/
def wrap (name : Bytes) (params : Option (List Tag)) (results : Option Nat) : Option (Wrapper × Arities) :=
  match params, results with
  | some ps, some n => some (⟨name, ps, n⟩, ⟨ps.length, n⟩)
  | _, _ => none

/-- the loop of `retrieveExportedFunctions` (`wasmer/instance_helpers.go` 86-106) -/
def functionsFrom : List NativeExport → AMap Bytes Wrapper × AMap Bytes Arities →
    Option (AMap Bytes Wrapper × AMap Bytes Arities)
  | [], acc => some acc
  | ⟨name, .function ps n⟩ :: rest, acc =>
    match wrap name ps n with
    | none => none
    | some (w, a) => functionsFrom rest (acc.1.insert name w, acc.2.insert name a)
  | ⟨_, _⟩ :: rest, acc => functionsFrom rest acc

/-- `retrieveExportedMemory` (`wasmer/instance_helpers.go` 53-78): `none` for its error, else the memory found last -/
def memoryFrom : List NativeExport → Option Nat → Option (Option Nat)
  | [], acc => some acc
  | ⟨_, .memory none⟩ :: _, _ => none
  | ⟨_, .memory (some m)⟩ :: rest, _ => memoryFrom rest (some m)
  | ⟨_, _⟩ :: rest, acc => memoryFrom rest acc

/-- `Instance` (`wasmer/instance.go` 62-92), the fields that are looked at -/
structure Instance where
  exports : AMap Bytes Wrapper
  signatures : AMap Bytes Arities
  memory : Option Nat

/-- `newInstance` (`wasmer/instance.go` 164-188): `none` for its errors -/
def makeInstance (l : List NativeExport) : Option Instance :=
  match functionsFrom l (.empty, .empty) with
  | none => none
  | some (es, ss) =>
    match memoryFrom l none with
    | none => none
    | some m => some ⟨es, ss, m⟩

/-- what the host sees of an instance (`wasmer.InstanceHandler`: `GetExports`, `GetSignature`, `HasMemory`,
`wasmer/instance.go` 190-193, 296-305): `code` is what running a function without arguments does -/
def Instance.asModule {A : Type} (i : Instance) (code : Bytes → Prog A) (imports : Bytes → Bool) (mem : Bytes) : WasmModule A where
  exports := i.exports.entries.map (fun p => (p.1, code p.1))
  signature := fun n => (i.signatures.get? n).map (fun a => (a.input, a.output))
  imports := imports
  hasMemory := i.memory.isSome
  initMem := mem

end Exporting
end Arwen
