import Verif.Mandos.OldTest
import Verif.Spec.Rewrite
/-!
What C71 says about files: the old tests that survive being written and read again, part by part. Everything that is not mentioned survives
always.
-/
namespace Arwen.Spec
open Arwen.Mandos

/-- a transaction of an old test: with a sender, with a receiver if it is a call, and without a token -/
structure KeptTestTx (x : JTx) : Prop where
  sender : x.sender.original ≠ []
  to : x.kind = .scCall → x.to.original ≠ []
  token : x.token = none

/-- the header of a block: all numbers are given -/
structure KeptHeader (x : JHeader) : Prop where
  beneficiary : x.beneficiary.value ≠ none
  difficulty : x.difficulty.value ≠ none
  number : x.number.value ≠ none
  gasLimit : x.gasLimit.value ≠ none

/-- a block: with a header -/
structure KeptBlock (x : JBlock) : Prop where
  results : ∀ r ∈ x.results, ∀ l ∈ r.logs, KeptLog l
  txs : ∀ t ∈ x.txs, KeptTestTx t
  header : ∃ h, x.header = some h ∧ KeptHeader h

/-- an old test: with a final state -/
structure KeptTest (x : JTest) : Prop where
  pre : ∀ a ∈ x.pre, KeptAccount a
  blocks : ∀ b ∈ x.blocks, KeptBlock b
  post : ∃ c, x.post = some c ∧ ∀ a ∈ c.accounts, KeptChkAccount a

/-- the transaction without its nonce -/
def dropNonce (x : JTx) : JTx := { x with nonce := {} }

/-- the step, with a transaction without its nonce -/
def dropStepNonce : JStep → JStep
  | .tx t => .tx { t with tx := t.tx.map dropNonce }
  | s => s

/-- the scenario, with transactions without their nonces -/
def dropNonces (x : JScenario) : JScenario := { x with steps := x.steps.map dropStepNonce }

/-- an old test that loses nothing but nonces when the scenario that it is converted to is written: the parts are those that scenarios keep -/
structure Convertible (x : JTest) : Prop where
  pre : ∀ a ∈ x.pre, KeptAccount a
  txs : ∀ b ∈ x.blocks, ∀ t ∈ b.txs, KeptTx (dropNonce t)
  results : ∀ b ∈ x.blocks, ∀ r ∈ b.results, ∀ l ∈ r.logs, KeptLog l
  post : ∃ c, x.post = some c ∧ ∀ a ∈ c.accounts, KeptChkAccount a

end Arwen.Spec
