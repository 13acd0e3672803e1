/-
Model of `fuzz/util/randomEventProvider.go`: random events with given probabilities. Numbers of type `float32` that are not negative and
not too large are whole multiples of 2^-149 and are given as these multiples; infinities, negative numbers and NaN are left out.
-/
namespace Arwen.Mock

/-- the number 1 -/
@[irreducible] def floatOne : Nat := 2 ^ 149

/-- rounding to a number of type `float32`: 24 binary digits, to the nearest, and to the even one of two -/
@[irreducible] def roundFloat (n : Nat) : Nat :=
  let k := Nat.log2 n - 23
  let q := n / 2 ^ k
  let r := n % 2 ^ k
  if 2 * r < 2 ^ k ∨ (2 * r = 2 ^ k ∧ q % 2 = 0) then q * 2 ^ k else (q + 1) * 2 ^ k

/-- `RandomEventProvider`, `randomEventProvider.go` 8-12 -/
structure EventSource where
  currentRand : Nat
  cumulatedProb : Nat

/-- `Reset`, `randomEventProvider.go` 24-27, for the number that is drawn (`Float32`, external: from 0 up to, but not including, 1) -/
def EventSource.reset (x : Nat) : EventSource := { currentRand := x, cumulatedProb := 0 }

/-- `WithProbability`, `randomEventProvider.go` 30-36; `none` for the panic -/
@[irreducible] def EventSource.withProbability (p : Nat) (e : EventSource) : Option (Bool × EventSource) :=
  let c := roundFloat (e.cumulatedProb + p)
  if floatOne < c then none else some (decide (e.currentRand < c), { e with cumulatedProb := c })

/-- the way in which fuzzers use it (`fuzz/delegation/v0.3/fuzzDelegation_test.go` 74-131, for instance): one event after the other is tried until one
happens. The number of the event that happens, if any; `none` for a panic. -/
def EventSource.first : List Nat → EventSource → Option (Option Nat)
  | [], _ => some none
  | p :: l, e =>
    match e.withProbability p with
    | none => none
    | some (b, e) => if b then some (some 0) else (EventSource.first l e).map fun r => r.map (· + 1)

end Arwen.Mock
