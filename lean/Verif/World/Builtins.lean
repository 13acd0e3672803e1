import Verif.World.Executor
import Verif.World.Esdt
import Verif.Mandos.Expr
/-
The built-in functions as the mock world offers them (`mock/world/builtinFunctionsWrapper.go`, `mock/world/mockESDT.go`,
`mock/world/dnsUtil.go`). The functions themselves are those of the library `elrond-vm-common`: they are parameters.
Accounts are handed to them as pointers; here a pointer is the address of the account in the map, and `none` is nil.
A result `none` of the functions below is a panic: a field of a nil pointer is read.
-/
namespace Arwen.Mock

/-- `ProcessBuiltinFunction` of a function of the library: it is given the accounts of the caller and of the recipient and the input -/
abbrev BuiltinFn := MockWorld → Option Addr → Option Addr → CallInput → Except Err BuiltinOutput × MockWorld

/-- `vmcommon.BuiltInFunctionContainer`: functions by their names -/
abbrev BuiltinTable := AMap Bytes BuiltinFn

/-- the error of `Container.Get` for a name that is not in the container -/
def unknownBuiltin : Err := .other 901
/-- `ErrBuiltinFuncWrapperNotInitialized`, `mock/world/worldCallbacks.go` 17 -/
def noWrapper : Err := .other 902
/-- the error of a token whose record cannot be decoded -/
def badToken : Err := .other 903

namespace MockWorld

/-- `ComputeId`, `mock/world/worldDef.go` 104-106 -/
def computeId (w : MockWorld) (a : Addr) : Option UInt32 :=
  match w.account a with
  | none => none
  | some acc => some acc.shard

/-- `SameShard`, `mock/world/worldDef.go` 114-116 -/
def sameShard (w : MockWorld) (a b : Addr) : Option Bool :=
  match w.computeId a, w.computeId b with
  | some s, some t => some (s == t)
  | _, _ => none

/-- `getAccountSharded`, `mock/world/builtinFunctionsWrapper.go` 83-89. `SelfId` is in `worldDef.go` 109-111. -/
def accountSharded (w : MockWorld) (a : Addr) : Option (Option Addr) :=
  match w.computeId a with
  | none => none
  | some s => if s ≠ w.selfShard then some none else some ((w.account a).map (fun _ => a))

end MockWorld

/-- `BuiltinFunctionsWrapper.ProcessBuiltInFunction`, `mock/world/builtinFunctionsWrapper.go` 65-75: the accounts are looked up before
the function is -/
def processBuiltIn (T : BuiltinTable) (w : MockWorld) (i : CallInput) : Option (Except Err BuiltinOutput × MockWorld) :=
  match w.accountSharded i.vm.caller with
  | none => none
  | some caller =>
    match w.accountSharded i.recipient with
    | none => none
    | some recipient =>
      match T.get? i.function with
      | none => some (.error unknownBuiltin, w)
      | some f => some (f w caller recipient i)

/-- `MockWorld.ProcessBuiltInFunction`, `mock/world/worldCallbacks.go` 163-174; the pointer to the wrapper may be nil -/
def hookBuiltIn (T : Option BuiltinTable) (w : MockWorld) (i : CallInput) : Option (Except Err BuiltinOutput × MockWorld) :=
  match w.err with
  | some e => some (.error e, w)
  | none =>
    match T with
    | none => some (.error noWrapper, w)
    | some T => processBuiltIn T w i

/-- `GetBuiltinFunctionNames`, `mock/world/worldCallbacks.go` 192-194, and `mock/world/builtinFunctionsWrapper.go` 78-80 -/
def builtinNames (T : Option BuiltinTable) : Option (List Bytes) :=
  match T with
  | none => none
  | some T => some (T.entries.map Prod.fst)

/-- `BuiltinFunctionsWrapper.GetTokenData`, `mock/world/mockESDT.go` 36-39 -/
def wrapperToken (C : TokenCodec) (w : MockWorld) (a : Addr) (key : Bytes) : Option (Except Err TokenRec) :=
  match w.account a with
  | none => none
  | some acc =>
    match getTokenData C acc.storage key with
    | none => some (.error badToken)
    | some t => some (.ok t)

/-- `MockWorld.GetESDTToken`, `mock/world/worldCallbacks.go` 177-189 -/
def hookToken (C : TokenCodec) (T : Option BuiltinTable) (w : MockWorld) (a : Addr) (name : Bytes) (nonce : UInt64) :
    Option (Except Err TokenRec) :=
  match w.err with
  | some e => some (.error e)
  | none =>
    match T with
    | none => some (.error noWrapper)
    | some _ => wrapperToken C w a (makeTokenKey name nonce)

/-- `BuiltinFunctionsWrapper.GetTokenBalance`, `mock/world/mockESDT.go` 22-25 -/
def wrapperBalance (C : TokenCodec) (w : MockWorld) (a : Addr) (key : Bytes) : Option (Except Err Int) :=
  match w.account a with
  | none => none
  | some acc =>
    match getTokenBalance C acc.storage key with
    | none => some (.error badToken)
    | some v => some (.ok v)

/-- `BuiltinFunctionsWrapper.SetTokenBalance`, `mock/world/mockESDT.go` 29-32; the flag is false for an error -/
def wrapperSetBalance (C : TokenCodec) (w : MockWorld) (a : Addr) (key : Bytes) (v : Int) : Option (Bool × MockWorld) :=
  match w.account a with
  | none => none
  | some acc =>
    match setTokenBalance C acc.storage key v with
    | none => some (false, w)
    | some st => some (true, w.put a { acc with storage := st })

/-- the input that `PerformDirectESDTTransfer` makes, `mock/world/mockESDT.go` 64-86 -/
def directInput (sender receiver token : Bytes) (nonce : UInt64) (value : Int) (callType : CallType) (gasLimit gasPrice : UInt64) :
    CallInput :=
  let vm : VMInput := { caller := sender, callType := callType, gasPrice := gasPrice, gasProvided := gasLimit }
  if nonce > 0 then
    { vm := { vm with args := [token, natToBytes nonce.toNat, natToBytes value.natAbs, receiver] }, recipient := sender,
      function := esdtNftTransferName }
  else
    { vm := { vm with args := [token, natToBytes value.natAbs] }, recipient := receiver, function := esdtTransferName }

/-- `PerformDirectESDTTransfer`, `mock/world/mockESDT.go` 54-101; the gas that is left, or an error -/
def directTransfer (T : BuiltinTable) (w : MockWorld) (i : CallInput) : Option (Option UInt64 × MockWorld) :=
  match processBuiltIn T w i with
  | none => none
  | some (.error _, w) => some (none, w)
  | some (.ok b, w) => if b.out.returnCode ≠ .ok then some (none, w) else some (some b.out.gasRemaining, w)

/-- `numDNSAddresses`, `mock/world/dnsUtil.go` 9 -/
def numDns : UInt8 := 0xFF

/-- the expression of one address, `mock/world/dnsUtil.go` 18: `sc:dns#` and two hexadecimal digits -/
def dnsExpr (i : UInt8) : Bytes := Mandos.ascii ['s', 'c', ':', 'd', 'n', 's', '#'] ++ hexEncode [i]

/-- `makeDNSAddresses`, `mock/world/dnsUtil.go` 11-23: the interpreter has no files; an error leaves an empty address -/
def dnsAddresses (keccak : Bytes → Bytes) (num : UInt8) : List Bytes :=
  (List.range num.toNat).map (fun i =>
    match Mandos.interpretString { resolver := none, keccak := keccak } (dnsExpr (UInt8.ofNat i)) with
    | .ok a => a
    | .error _ => [])

end Arwen.Mock
