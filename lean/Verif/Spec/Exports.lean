import Verif.Eei.Exports
/-
What it means that a function of a contract is called with given arguments.
-/
namespace Arwen.Spec
open Arwen.Exporting

/-- the integer that an argument stands for -/
def argNumber : GoArg → Option Int
  | .int8 v => some v.toInt
  | .uint8 v => some (v.toNat : Int)
  | .int16 v => some v.toInt
  | .uint16 v => some (v.toNat : Int)
  | .int32 v => some v.toInt
  | .uint32 v => some (v.toNat : Int)
  | .int64 v => some v.toInt
  | .uint64 v => some (v.toNat : Int)
  | .int v => some v.toInt
  | .uint v => some (v.toNat : Int)
  | .value v =>
    match v.ty with
    | .i32 => some v.toI32.toInt
    | .i64 => some v.toI64.toInt
    | .void => none
  | _ => none

/-- the Go types that a parameter of a WebAssembly type takes -/
def Takes : Tag → GoArg → Bool
  | .i32, .int8 _ | .i32, .uint8 _ | .i32, .int16 _ | .i32, .uint16 _ | .i32, .int32 _ | .i32, .int _ | .i32, .uint _ => true
  | .i64, .int8 _ | .i64, .uint8 _ | .i64, .int16 _ | .i64, .uint16 _ | .i64, .int32 _ | .i64, .uint32 _ => true
  | .i64, .int64 _ | .i64, .int _ | .i64, .uint _ => true
  | .i32, .value v => v.ty == .i32
  | .i64, .value v => v.ty == .i64
  | _, _ => false

/-- the Go types that are documented to be accepted for parameters of the same kind (`wasmer/instance.go` 67-76) -/
def DocumentedTypes : Tag → GoArg → Bool
  | .i32, .uint32 _ => true
  | .f32, .float32 _ => true
  | .f64, .float64 _ => true
  | t, a => Takes t a

/-- the arguments fit the parameters in number and types -/
def Callable (params : List Tag) (args : List GoArg) : Prop :=
  args.length = params.length ∧
    ∀ (i : Nat) (t : Tag) (a : GoArg), params[i]? = some t → args[i]? = some a → Takes t a = true

/-- the value that a native function sees, as a signed integer of its type -/
def slotNumber (x : Slot) : Int :=
  match x.tag with
  | .i32 => x.getI32.toInt
  | _ => x.getI64.toInt

/-- number of values of an integer type -/
def tagSize : Tag → Nat
  | .i32 => 2 ^ 32
  | _ => 2 ^ 64

/-- the native function sees the arguments, in order and with their types; numbers that are too large lose their high bits -/
def Passed (params : List Tag) (args : List GoArg) (inputs : List Slot) : Prop :=
  inputs.length = params.length ∧
    ∀ (i : Nat) (t : Tag) (a : GoArg) (x : Slot), params[i]? = some t → args[i]? = some a → inputs[i]? = some x →
      x.tag = t ∧ ∃ n, argNumber a = some n ∧ slotNumber x = n.bmod (tagSize t)

/-- what the caller gets of the outputs: the first one -/
def GivesBack (results : Nat) (outs : List Slot) (r : CallRes Value) : Prop :=
  if results = 0 then r = .ok .void
  else match outs with
    | [] => False
    | x :: _ =>
      match x.tag with
      | .i32 => ∃ v, r = .ok v ∧ v.ty = .i32 ∧ v.toI32 = x.getI32
      | .i64 => ∃ v, r = .ok v ∧ v.ty = .i64 ∧ v.toI64 = x.getI64
      | _ => ∃ n m, r = .error (.exported n m)

/-- a native instance that fills the array of outputs it is given -/
def FillsOutputs {σ : Type} (N : Native σ) : Prop :=
  ∀ name inputs n s outs s', N.call name inputs n s = (some outs, s') → outs.length = n

/-- the native module exports a function of this name, these parameters and this number of results, and no other after it -/
def ExportsFunction (l : List NativeExport) (name : Bytes) (ps : List Tag) (n : Nat) : Prop :=
  ∃ before after : List NativeExport, l = before ++ ⟨name, .function (some ps) (some n)⟩ :: after ∧
    ∀ e ∈ after, e.name = name → ∀ ps' n', e.kind ≠ .function ps' n'

/-- everything that the native module exports can be read -/
def Readable (l : List NativeExport) : Prop :=
  ∀ e ∈ l, match e.kind with
    | .function ps n => ps.isSome ∧ n.isSome
    | .memory m => m.isSome
    | .other => True

end Arwen.Spec
