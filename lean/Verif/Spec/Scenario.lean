import Verif.Spec.Check
import Verif.Spec.Independent
import Verif.World.Scenario
/-
Specification for C57 and C58: what the author of scenarios expects of their execution.
-/
namespace Arwen.Spec
open Arwen.Mock
variable {A : Type}

/-- an executor that was just made, over a world, with the virtual machine's first gas schedule -/
def freshRunner (w : MockWorld) (g : GasSchedule) : Runner A := { st := freshHost w g }

/-- an account that a `setState` step may describe: an address of 32 bytes, which has the form of a contract address if and only if
there is code -/
def Settable (a : AccountInit) : Prop := a.address.length = 32 ∧ (a.address.take 8 = List.replicate 8 0 ↔ a.code ≠ [])

/-- the world after a `setState` step: the accounts are put, the blocks replaced, the addresses for new contracts added -/
def worldSet (C : TokenCodec) (x : SetState) (w : MockWorld) : MockWorld :=
  let w := x.accounts.foldl (fun w a => let d := convertAccount C a
    w.put a.address { d.acc with storage := d.tokens.foldl (fun m p => m.insert p.1 p.2) d.acc.storage }) w
  { w with previous := x.previous, current := x.current, blockhashes := x.blockhashes, addressMocks := w.addressMocks ++ x.addressMocks }

/-- All the steps pass, one after the other, each from the state in which the one before left the machine, all with the same
environment and so with the same gas schedule. In a scenario that is included the included scenario says whether gas is
checked. -/
inductive Passes (E : Env MockWorld A) (L : Lib) (n : Nat) (C : TokenCodec) :
    Bool → List Step → St MockWorld A → St MockWorld A → Prop
  | done (checkGas : Bool) (s : St MockWorld A) : Passes E L n C checkGas [] s s
  | external {checkGas checkGas' : Bool} {gas : GasKind} {steps rest : List Step} {s t u : St MockWorld A} :
      Passes E L n C checkGas' steps s t → Passes E L n C checkGas rest t u →
      Passes E L n C checkGas (.external checkGas' gas steps :: rest) s u
  | setState {checkGas : Bool} {x : SetState} {rest : List Step} {s u : St MockWorld A} :
      (∀ a ∈ x.accounts, Settable a) → (∀ m ∈ x.addressMocks, m.address.take 8 = List.replicate 8 0) →
      Passes E L n C checkGas rest { s with world := worldSet C x s.world } u →
      Passes E L n C checkGas (.setState x :: rest) s u
  | checkState {checkGas : Bool} {c : CheckAccounts} {rest : List Step} {s u : St MockWorld A} :
      WorldAs C c s.world → Passes E L n C checkGas rest s u → Passes E L n C checkGas (.checkState c :: rest) s u
  | tx {checkGas : Bool} {t : TxStep} {rest : List Step} {s v u : St MockWorld A} {o : VMOutput} :
      executeTx E L n t.id t.tx s = (some (.ok o), v) → (∀ c, t.expect = some c → ResultAs checkGas c o) →
      Passes E L n C checkGas rest v u → Passes E L n C checkGas (.tx t :: rest) s u
  | dump {checkGas : Bool} {rest : List Step} {s u : St MockWorld A} :
      Passes E L n C checkGas rest s u → Passes E L n C checkGas (.dump :: rest) s u

mutual
/-- the scenarios that a step includes, directly or not, all say the same about checking gas -/
def EvenStep (checkGas : Bool) : Step → Prop
  | .external checkGas' _ steps => checkGas' = checkGas ∧ EvenSteps checkGas steps
  | _ => True
/-- the same for several steps -/
def EvenSteps (checkGas : Bool) : List Step → Prop
  | [] => True
  | s :: rest => EvenStep checkGas s ∧ EvenSteps checkGas rest
end

/-- a transaction that neither deploys nor upgrades a contract -/
def PlainTx (t : ScTx) : Prop := t.kind ≠ .scDeploy ∧ t.function ≠ "upgradeContract".toUTF8.data.toList

mutual
/-- all transactions of a step neither deploy nor upgrade a contract -/
def PlainStep : Step → Prop
  | .external _ _ steps => PlainSteps steps
  | .tx t => PlainTx t.tx
  | _ => True
/-- the same for several steps -/
def PlainSteps : List Step → Prop
  | [] => True
  | s :: rest => PlainStep s ∧ PlainSteps rest
end

end Arwen.Spec
