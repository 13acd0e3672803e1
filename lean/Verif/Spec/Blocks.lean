import Verif.Spec.Scenario
import Verif.Eei.Api
import Verif.Host.Compare
/-
Specification for C76: what contracts are told about blocks in a scenario.
-/
namespace Arwen.Spec
open Arwen.Mock Arwen.Eei

mutual
/-- a step that does not set the state, nor includes steps that do -/
def SetsNothing : Step → Prop
  | .external _ _ steps => AllSetNothing steps
  | .setState _ => False
  | _ => True
/-- the same for several steps -/
def AllSetNothing : List Step → Prop
  | [] => True
  | s :: rest => SetsNothing s ∧ AllSetNothing rest
end

/-- the last of the steps that sets the state, also in included scenarios, is this one; without any, there are no blocks -/
inductive LastSet : List Step → SetState → Prop
  | never {l : List Step} : AllSetNothing l → LastSet l {}
  | now {x : SetState} {rest : List Step} : AllSetNothing rest → LastSet (.setState x :: rest) x
  | inside {b : Bool} {k : GasKind} {steps rest : List Step} {x : SetState} : ¬ AllSetNothing steps → LastSet steps x → AllSetNothing rest →
      LastSet (.external b k steps :: rest) x
  | later {s : Step} {rest : List Step} {x : SetState} : ¬ AllSetNothing rest → LastSet rest x → LastSet (s :: rest) x

/-- the hash of a block by its number: the hashes are listed backwards from the current block; nothing if there is none, and asking for
one 2^63 or more blocks before the current one is a panic (`none`) -/
def namedHash (x : SetState) (number : Int64) : Option Bytes :=
  if number < 0 ∨ (x.current.getD {}).nonce < number.toUInt64 then some []
  else if 2 ^ 63 ≤ ((x.current.getD {}).nonce - number.toUInt64).toNat then none
  else some ((x.blockhashes[((x.current.getD {}).nonce - number.toUInt64).toNat]?).getD [])

/-- what is said of the seed of a block: nothing without a block, and asking for the seed of a block without one is a panic -/
def namedSeed (b : Option BlockInfo) (off : Int32) : P MockWorld EeiCall :=
  match b with
  | none => storeEndK off []
  | some b => match b.seed with
    | none => .panic
    | some d => storeEndK off d

/-- The API of a host that does not ask the chain about blocks, but answers with what a `setState` step says (and zero for what
it does not say), for the same price. All other functions are as they are. -/
def toldBlocks (E : Env MockWorld EeiCall) (x : SetState) : EeiCall → P MockWorld EeiCall
  | .getBlockTimestamp => gasK .getBlockTimeStamp (.pure (x.current.getD {}).timestamp.toInt64)
  | .getBlockNonce => gasK .getBlockNonce (.pure (x.current.getD {}).nonce.toInt64)
  | .getBlockRound => gasK .getBlockRound (.pure (x.current.getD {}).round.toInt64)
  | .getBlockEpoch => gasK .getBlockEpoch (.pure (x.current.getD {}).epoch.toUInt64.toInt64)
  | .getBlockRandomSeed off => gasK .getBlockRandomSeed (namedSeed x.current off)
  | .getPrevBlockTimestamp => gasK .getBlockTimeStamp (.pure (x.previous.getD {}).timestamp.toInt64)
  | .getPrevBlockNonce => gasK .getBlockNonce (.pure (x.previous.getD {}).nonce.toInt64)
  | .getPrevBlockRound => gasK .getBlockRound (.pure (x.previous.getD {}).round.toInt64)
  | .getPrevBlockEpoch => gasK .getBlockEpoch (.pure (x.previous.getD {}).epoch.toUInt64.toInt64)
  | .getPrevBlockRandomSeed off => gasK .getBlockRandomSeed (namedSeed x.previous off)
  | .getBlockHash number off => gasK .getBlockHash
      (match namedHash x number with | none => .panic | some h => storeK off h 1 (.pure 0))
  | a => E.api a

end Arwen.Spec
