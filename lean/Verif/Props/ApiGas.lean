import Verif.Host.ApiGas
import Verif.Props.Deploy
import Verif.Props.Gas
/-
C12, the part about single functions of the API: no call of a contract leaves it with more gas than before.
-/
namespace Arwen.Props
open Arwen Arwen.Spec
variable {χ A : Type}

/-- Every state in which a contract runs is one with a valid instance: `Valid` holds when a transaction starts, and stays true. -/
theorem valid_reached {E : Env χ A} (hw : E.useWarm = false) {n : Nat} {tx : Tx} {s u : St χ A} (hr : AtRest E s)
    (h : Run (StepT E (execN E n)) (txStart E tx s) u) : Valid u := by
  have h1 : (txStart E tx s).rt.instance_ = none := by
    rw [(txStart_rt tx s).2.1]
    exact hr.inst.resolve_right (by rw [hw]; simp)
  have h2 : Valid (txStart E tx s) := fun c hc => by rw [h1] at hc; cases hc
  exact ((countKept_binary hw).runT (fun s d _ => .of_eq rfl (fun _ => rfl) rfl) h).valid h2
/-- nested executions too start in such a state and only reach such states -/
theorem valid_nested {E : Env χ A} (hw : E.useWarm = false) {n : Nat} {i : CallInput} {s u : St χ A} (hv : Valid s)
    (h : Run (StepB E (execN E n)) (enterDestState i s) u ∨ Run (StepB E (execN E n)) (enterSameState E i s) u) : Valid u := by
  rcases h with h | h
  · exact ((countKept_binary hw).runN h).valid hv
  · exact ((countKept_binary hw).runN h).valid hv

/-- **C12**, functions of the API: whatever function a contract calls, with whatever arguments and whatever contracts are called by it in
turn, it has no more gas left afterwards than before, unless the function deploys a contract. Gas may come back from a nested call, but no
more than was handed to it. -/
theorem c12_api_partial {E : Env χ EeiCall} (hw : E.useWarm = false) (hb : FrugalBuiltins E) {a : EeiCall} (ha : .create ∉ a.powers) {n : Nat}
    {s t : St χ EeiCall} {r : Int64} (hv : Valid s) (hi : s.rt.instance_ ≠ none) (hg : s.met.cur.gasForExecution.toNat < 2 ^ 62)
    (h : interp E (execN E n) (eei E a) s = (.ok r, t)) : t.gasLeft ≤ s.gasLeft := by
  obtain ⟨i, hi⟩ := Option.ne_none_iff_exists'.mp hi
  have hc : s.met.cur.gasForExecution.toNat ≤ gasCap := by unfold gasCap; omega
  exact gasLeft_of_spent hi (interp_spent hw hb (Nat.min_le_right _ _) hc _ (Eei.eei_frugal E a ha) s r t
    ⟨⟨hv, hi, Nat.min_le_left _ _⟩, rfl⟩ h) hc

/-- **C12**, running contracts: the same for any program, from any point of its run to any later one. -/
theorem c12_run_partial {E : Env χ EeiCall} (hE : E.api = eei E) (hw : E.useWarm = false) (hb : FrugalBuiltins E) {p : Prog EeiCall}
    (hp : p.Keeps fun a => .create ∉ a.powers) {n i : Nat} {s t : St χ EeiCall} {r : Bool} (hv : Valid s) (hi : s.rt.instance_ = some i)
    (hg : s.met.cur.gasForExecution.toNat < 2 ^ 62) (h : runProg E (execN E n) i p s = (.ok r, t)) : t.gasLeft ≤ s.gasLeft := by
  have hc : s.met.cur.gasForExecution.toNat ≤ gasCap := by unfold gasCap; omega
  exact gasLeft_of_spent hi (runProg_spent hE hw hb (Nat.min_le_right _ _) hc p hp s r t ⟨⟨hv, hi, Nat.min_le_left _ _⟩, rfl⟩ h) hc

/-! ### Examples and a violation -/

section
open Fixture
/-- notes the gas left -/
def noteGas (k : P) : P := .call .getGasLeft fun x => .call (.int64finish x) fun _ => k
/-- a contract with a code of 50 bytes, that deploys one with a code of one byte and notes the gas left before and after -/
def creator : Bytes := List.replicate 50 3
def gainEnv : Env World EeiCall := envWith [
  (creator, mod [(Fixture.f, noteGas <| create [4] [7, 0] 0 0 <| noteGas .ret)]),
  ([4], mod [(initName, .ret)])]
def gainHost : St World EeiCall := host (node [(addr 100, contract creator 50)])
end

/-- the contract sees its gas grow from 948 to 995 -/
example : checkOut (runTx gainEnv 5 (Fixture.callTx (Fixture.addr 1) (Fixture.addr 100) Fixture.f 1000) gainHost)
    (fun o => decide (o.returnCode = .ok ∧ o.returnData.map bytesToNat = [948, 995])) = true := by decide +kernel

/-- a contract in the middle of its run: it was given 1000 gas, of which 50 were charged for its code -/
def gainStart : St Fixture.World EeiCall :=
  let s := Fixture.running (gas := 950)
  { s with rt := { s.rt with cur := { s.rt.cur with vmInput := { s.rt.cur.vmInput with gasProvided := 1000 } } } }

/-- C12 fails for deployments: the initial cost of the new contract replaces the one of the contract that deploys it, so that a contract with a
long code gets gas back by deploying one with a short code (`arwen/host/execution.go` `CreateNewContract`). -/
theorem c12_create_neg : ∃ (E : Env Fixture.World EeiCall) (n : Nat) (a : EeiCall) (s t : St Fixture.World EeiCall) (r : Int64),
    E.useWarm = false ∧ Valid s ∧ s.rt.instance_ ≠ none ∧ s.met.cur.gasForExecution.toNat < 2 ^ 62 ∧
    interp E (execN E n) (eei E a) s = (.ok r, t) ∧ s.gasLeft < t.gasLeft := by
  have h : (match interp gainEnv (execN gainEnv 5) (eei gainEnv (.createContract 0 0 0 0 1 32 0 0 0)) gainStart with
    | (.ok _, t) => decide (gainStart.gasLeft < t.gasLeft) | _ => false) = true := by decide +kernel
  generalize hq : interp gainEnv (execN gainEnv 5) (eei gainEnv (.createContract 0 0 0 0 1 32 0 0 0)) gainStart = q at h
  obtain ⟨r, t⟩ := q
  cases r with
  | ok r => exact ⟨gainEnv, 5, _, gainStart, t, r, rfl, fun c hc => by cases hc; decide, by decide, by decide, hq, of_decide_eq_true h⟩
  | _ => cases h

/-- C12: a call of another contract, in a state that meets the hypotheses; gas comes back from it. -/
def gasStart : St Fixture.World EeiCall := { Fixture.running (mem := Fixture.addr 101 ++ List.replicate 32 0 ++ Fixture.g) with
  world := gasHost.world }
example : FrugalBuiltins gasEnv ∧ gasEnv.useWarm = false ∧ Valid gasStart ∧ gasStart.rt.instance_ ≠ none :=
  ⟨fun w i b a acc x h1 h2 => by cases h1; exact absurd h2 (by simp [AMap.get?_empty]), rfl,
    fun c hc => by cases hc; decide, by decide⟩
example : (match interp gasEnv (execN gasEnv 5) (eei gasEnv (.executeOnDestContext 500 0 32 64 1 0 0 0)) gasStart with
    | (.ok r, t) => decide (r = 0 ∧ t.gasLeft < gasStart.gasLeft ∧ gasStart.gasLeft < t.gasLeft + 100) | _ => false) = true := by decide +kernel
/-- C12: the program of the contract above deploys nothing -/
example : (Fixture.callDest (Fixture.addr 101) Fixture.g 200 <| Fixture.send (Fixture.addr 2) 7 <| Fixture.put [1] [2] .ret).Keeps
    (fun a => .create ∉ a.powers) := by
  simp [Fixture.callDest, Fixture.send, Fixture.put, Prog.Keeps, EeiCall.powers]

end Arwen.Props
