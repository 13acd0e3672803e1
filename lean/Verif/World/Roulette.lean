/-
Model of `fuzz/weightedroulette/weightedRoulette.go`: how the fuzzers choose what to do next. The source of random numbers
(`math/rand`, external) is a parameter.
-/
namespace Arwen.Mock

/-- `outputWeightSum`, `weightedRoulette.go` 27-33; `acc` is the sum so far -/
def weightSum (acc : Int64) : List Int64 → Int64
  | [] => acc
  | w :: l => weightSum (acc + w) l

/-- the loop of `RandomChoice`, `weightedRoulette.go` 17-23: the number of the outcome whose event is executed, if any; `acc` is
`cumulative` -/
def pick (x acc : Int64) : List Int64 → Option Nat
  | [] => none
  | w :: l => if x < acc + w then some 0 else (pick x (acc + w) l).map (· + 1)

/-- what a choice ends with: the random numbers panic, or at most one event is executed -/
inductive Choice
  | panics
  | event (i : Option Nat)
  deriving DecidableEq

/-- `RandomChoice`, `weightedRoulette.go` 14-24, for the weights of the outcomes. `Intn` (external) panics if its argument is not
positive; `draw` is what it returns otherwise. -/
def randomChoice (draw : Int64 → Int64) (ws : List Int64) : Choice :=
  if weightSum 0 ws ≤ 0 then .panics else .event (pick (draw (weightSum 0 ws)) 0 ws)

end Arwen.Mock
