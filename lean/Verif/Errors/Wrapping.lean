import Verif.State.Types
/-
Go error values and their chains: `arwen/errorWrapping.go` and the standard function `errors.Is`.
-/
namespace Arwen

/-- A Go error value. `plain` is made by `errors.New`, `wrapf` by `fmt.Errorf("… %w …", inner)`; both are pointers, compared by
identity. `multi` is a `*wrappableError` (`errorWrapping.go` 26-34); it is never compared for identity here, because targets of
`errors.Is` are plain errors. Locations and texts are not modelled. -/
inductive GoErr (I : Type) where
  | plain (id : I)
  | wrapf (id : I) (inner : GoErr I)
  | multi (errs : List (GoErr I))

namespace GoErr
variable {I : Type}

/-- `WrapError` (`errorWrapping.go` 41-49). -/
def wrapError : GoErr I → GoErr I
  | multi es => multi es
  | e => multi [e]

/-- the layers of a `*wrappableError` -/
def layers : GoErr I → List (GoErr I)
  | multi es => es
  | e => [e]

/-- `WrapWithError` (`errorWrapping.go` 61-64, 90-110), on a `*wrappableError`; `none` is a nil error.
`WrapWithMessage` and `WrapWithStackTrace` (51-59) wrap with a new plain error. -/
def wrapWith (w : GoErr I) : Option (GoErr I) → GoErr I
  | none => multi w.layers
  | some e => multi (w.layers ++ e.layers)

/-- `GetBaseError` (`errorWrapping.go` 66-70); an empty list panics (`none`). -/
def base (w : GoErr I) : Option (GoErr I) := w.layers.head?
/-- `GetLastError` (`errorWrapping.go` 72-76). -/
def last (w : GoErr I) : Option (GoErr I) := w.layers.getLast?
/-- `GetAllErrors` (`errorWrapping.go` 78-86). -/
def all (w : GoErr I) : List (GoErr I) := w.layers

variable [DecidableEq I]

mutual
/-- `errors.Is(e, target)` (Go standard library, before Go 1.20): compare, ask the `Is` method, unwrap, repeat.
`none` stands for a panic. -/
def isErr (t : I) : GoErr I → Option Bool
  | plain id => some (id = t)
  | wrapf id inner => if id = t then some true else isErr t inner
  | multi es => isMulti t es.length es
  termination_by e => (sizeOf e, 1, 0)

/-- `errors.Is` on a `*wrappableError` with the first `n` of these layers: its `Is` method (`errorWrapping.go` 153-161), then
`Unwrap` (135-152), which drops the last layer and answers the only remaining one itself; with no layer left it dereferences
a nil pointer. -/
def isMulti (t : I) (n : Nat) (es : List (GoErr I)) : Option Bool :=
  match anyErr t n es with
  | none => none
  | some true => some true
  | some false =>
    match n with
    | 0 => none
    | 2 => headErr t es
    | n + 1 => isMulti t n es
  termination_by (sizeOf es, 2, n)

/-- the loop of the `Is` method over the first `n` layers -/
def anyErr (t : I) (n : Nat) (es : List (GoErr I)) : Option Bool :=
  match n, es with
  | 0, _ => some false
  | _, [] => some false
  | n + 1, e :: rest =>
    match isErr t e with
    | none => none
    | some true => some true
    | some false => anyErr t n rest
  termination_by (sizeOf es, 0, 0)

/-- `errors.Is` of the first layer -/
def headErr (t : I) (es : List (GoErr I)) : Option Bool :=
  match es with
  | [] => none
  | e :: _ => isErr t e
  termination_by (sizeOf es, 0, 0)
end

end GoErr

/-- identity of an error value: one of the declared errors, or made in place -/
inductive Ident where
  | declared (e : Err)
  | made
  deriving DecidableEq

/-- The errors of the host as Go values (`arwen/errors.go`; names are added in place, `contexts/validator.go` 63-87). -/
def goErr : Err → GoErr Ident
  | .functionNonvoidSignature _ =>
    .wrapf .made (.wrapf (.declared (.functionNonvoidSignature [])) (.plain (.declared .invalidFunction)))
  | .invalidFunctionName _ =>
    .wrapf .made (.wrapf (.declared (.invalidFunctionName [])) (.plain (.declared .invalidFunction)))
  | .funcNotFoundNamed _ => .wrapf .made (.wrapf (.declared .funcNotFound) (.plain (.declared .invalidFunction)))
  | .funcNotFound => .wrapf (.declared .funcNotFound) (.plain (.declared .invalidFunction))
  | .badLowerBounds => .wrapf (.declared .badLowerBounds) (.plain (.declared .badBounds))
  | .badUpperBounds => .wrapf (.declared .badUpperBounds) (.plain (.declared .badBounds))
  | .transferInsufficientFunds => .wrapf (.declared .transferInsufficientFunds) (.plain (.declared .failedTransfer))
  | .transferNegativeValue => .wrapf (.declared .transferNegativeValue) (.plain (.declared .failedTransfer))
  | .invalidUpgradeArguments => .wrapf (.declared .invalidUpgradeArguments) (.plain (.declared .upgradeFailed))
  | .initFuncCalledInRun => .wrapf (.declared .initFuncCalledInRun) (.plain (.declared .invalidFunction))
  | .callBackFuncCalledInRun => .wrapf (.declared .callBackFuncCalledInRun) (.plain (.declared .invalidFunction))
  | .callBackFuncNotExpected => .wrapf (.declared .callBackFuncNotExpected) (.plain (.declared .invalidFunction))
  | .contractNotFound => .wrapf (.declared .contractNotFound) (.plain (.declared .contractInvalid))
  | .memoryDeclarationMissing => .wrapf (.declared .memoryDeclarationMissing) (.plain (.declared .contractInvalid))
  | .maxInstancesReached => .wrapf (.declared .maxInstancesReached) (.plain (.declared .executionFailed))
  | .memLoadBadBounds => .wrapf .made (.plain (.declared .badBounds))
  | .memLoadNegativeLength => .wrapf .made (.plain (.declared .negativeLength))
  | e => .plain (.declared e)

/-- `resolveReturnCodeFromError` (`contexts/output.go` 469-503) on Go error values; `none` is a panic of `errors.Is`. -/
def resolveGo (e : GoErr Ident) : Option ReturnCode :=
  let rec go : List (Err × ReturnCode) → Option ReturnCode
    | [] => some .executionFailed
    | (t, c) :: rest =>
      match GoErr.isErr (.declared t) e with
      | none => none
      | some true => some c
      | some false => go rest
  go [(.signalError, .userError), (.funcNotFound, .functionNotFound), (.functionNonvoidSignature [], .functionWrongSignature),
    (.invalidFunction, .userError), (.notEnoughGas, .outOfGas), (.contractNotFound, .contractNotFound),
    (.contractInvalid, .contractInvalid), (.upgradeFailed, .upgradeFailed), (.transferInsufficientFunds, .outOfFunds)]

end Arwen
