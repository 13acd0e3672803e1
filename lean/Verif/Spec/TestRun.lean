import Verif.Spec.Scenario
import Verif.World.OldTest
/-
Specification for C71: what the author of a test in the old format expects of its execution.
-/
namespace Arwen.Spec
open Arwen.Mock

/-- the world with one more account -/
def withAccount (C : TokenCodec) (w : MockWorld) (a : AccountInit) : MockWorld :=
  let d := convertAccount C a
  w.put a.address { d.acc with storage := d.tokens.foldl (fun m p => m.insert p.1 p.2) d.acc.storage }

/-- the world in which the transactions of a test start: nothing but its accounts and block hashes, and the settings that a reset keeps -/
def testWorld (C : TokenCodec) (t : Test) (w : MockWorld) : MockWorld :=
  { t.pre.foldl (withAccount C) w.clear with blockhashes := t.blockhashes }

/-- the transactions of a block with their results, each named after its number in the block -/
def blockSteps (first : Nat) (b : TestBlock) : List Step :=
  ((b.txs.zip b.results).zipIdx first).map fun p => .tx { id := Mandos.decimal p.2, tx := p.1.1, expect := some p.1.2 }

/-- the transactions of a test, and the check of the final state -/
def testSteps (first : Nat) (t : Test) (c : CheckAccounts) : List Step := t.blocks.flatMap (blockSteps first) ++ [.checkState c]

/-- there is a result for every transaction -/
def Resulting (t : Test) : Prop := ∀ b ∈ t.blocks, b.txs.length ≤ b.results.length

/-- all transactions of a test neither deploy nor upgrade a contract -/
def PlainTest (t : Test) : Prop := ∀ b ∈ t.blocks, ∀ x ∈ b.txs, PlainTx x

end Arwen.Spec
