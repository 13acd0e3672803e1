import Verif.World.Roulette
/-
Specification for C87: what a choice by weights is.
-/
namespace Arwen.Spec

/-- weights of outcomes as the program has them -/
def asWeights (ws : List Nat) : List Int64 := ws.map Int64.ofNat

/-- the number of draws below `n` for which something is so -/
def draws (n : Nat) (p : Nat → Bool) : Nat := ((List.range n).filter p).length

end Arwen.Spec
