import Verif.Eei.Api
/-
Lemmas on running the building blocks of API functions while a contract instance is active.
-/
namespace Arwen
variable {χ A : Type} (E : Env χ A)

/-- the bound applied by `SetPointsUsed` (`runtime.go` 679-684) -/
def clampPoints (g : UInt64) : UInt64 := if g > 0x7FFFFFFFFFFFFFFF then 0x7FFFFFFFFFFFFFFF else g

namespace St
/-- the state after using gas (nothing happens without an instance) -/
def spend (s : St χ A) (g : UInt64) : St χ A :=
  { s with insts := fun j => if s.rt.instance_ = some j then
      { s.insts j with points := clampPoints (addU64 s.pointsUsed g) } else s.insts j }

/-- the state after setting a breakpoint -/
def withBp (s : St χ A) (b : Breakpoint) : St χ A :=
  { s with insts := fun j => if s.rt.instance_ = some j then { s.insts j with bp := b } else s.insts j }

/-- the breakpoint of the running instance -/
def curBp (s : St χ A) : Breakpoint := match s.rt.instance_ with | none => .none | some i => (s.insts i).bp

/-- the state after a fault (`WithFault`) -/
def faulted (s : St χ A) (e : Err) : St χ A :=
  let s := s.spend s.gasLeft
  let s := { s with out := (s.out.setReturnCode .executionFailed).setReturnMessage (E.errText e) }
  s.withBp .executionFailed

@[simp] theorem spend_world (s : St χ A) (g) : (s.spend g).world = s.world := rfl
@[simp] theorem spend_flags (s : St χ A) (g) : (s.spend g).flags = s.flags := rfl
@[simp] theorem spend_big (s : St χ A) (g) : (s.spend g).big = s.big := rfl
@[simp] theorem spend_sto (s : St χ A) (g) : (s.spend g).sto = s.sto := rfl
@[simp] theorem spend_out (s : St χ A) (g) : (s.spend g).out = s.out := rfl
@[simp] theorem spend_met (s : St χ A) (g) : (s.spend g).met = s.met := rfl
@[simp] theorem spend_rt (s : St χ A) (g) : (s.spend g).rt = s.rt := rfl
@[simp] theorem spend_bcStack (s : St χ A) (g) : (s.spend g).bcStack = s.bcStack := rfl
@[simp] theorem spend_nextInst (s : St χ A) (g) : (s.spend g).nextInst = s.nextInst := rfl

@[simp] theorem faulted_world (s : St χ A) (e) : (s.faulted E e).world = s.world := rfl
@[simp] theorem faulted_flags (s : St χ A) (e) : (s.faulted E e).flags = s.flags := rfl
@[simp] theorem faulted_big (s : St χ A) (e) : (s.faulted E e).big = s.big := rfl
@[simp] theorem faulted_sto (s : St χ A) (e) : (s.faulted E e).sto = s.sto := rfl
@[simp] theorem faulted_met (s : St χ A) (e) : (s.faulted E e).met = s.met := rfl
@[simp] theorem faulted_rt (s : St χ A) (e) : (s.faulted E e).rt = s.rt := rfl
@[simp] theorem faulted_bcStack (s : St χ A) (e) : (s.faulted E e).bcStack = s.bcStack := rfl

theorem modInst_eq (s : St χ A) (i : Nat) (f : Inst A → Inst A) (h : s.rt.instance_ = some i) :
    s.modInst i f = { s with insts := fun j => if s.rt.instance_ = some j then f (s.insts j) else s.insts j } := by
  unfold modInst
  congr 1
  funext j
  by_cases hj : j = i
  · subst hj; simp [h]
  · have : s.rt.instance_ ≠ some j := by rw [h]; intro hc; exact hj (Option.some.inj hc).symm
    simp [hj, this]

end St

theorem useGas_run (s : St χ A) (g : UInt64) {i : Nat} (h : s.rt.instance_ = some i) :
    useGas g s = (.ok (), s.spend g) := by
  have h2 := s.modInst_eq i (fun x => { x with points := clampPoints (addU64 s.pointsUsed g) }) h
  simp only [useGas, M.bind_eq, M.bind, M.get, setPointsUsed, h]
  exact congrArg (fun t => (Res.ok (), t)) h2

theorem setBreakpoint_run (s : St χ A) (b : Breakpoint) {i : Nat} (h : s.rt.instance_ = some i) :
    setBreakpoint b s = (.ok (), s.withBp b) := by
  have h2 := s.modInst_eq i (fun x => { x with bp := b }) h
  simp only [setBreakpoint, h]
  exact congrArg (fun t => (Res.ok (), t)) h2

namespace Eei

variable (ex : Executor χ A)

@[simp] theorem interp_pure {α : Type} (a : α) (s : St χ A) : interp E ex (.pure a) s = (.ok a, s) := rfl
@[simp] theorem interp_panic {α : Type} (s : St χ A) : interp E ex (.panic : Free χ A α) s = (.panic, s) := rfl
@[simp] theorem interp_ask {α : Type} (k : St χ A → Free χ A α) (s : St χ A) :
    interp E ex (.ask k) s = interp E ex (k s) s := rfl
theorem interp_op {α : Type} (c : Cmd) (k : c.Resp → Free χ A α) (s : St χ A) :
    interp E ex (.op c k) s = M.bind (runCmd E ex c) (fun r => interp E ex (k r)) s := rfl

theorem interp_op_ok {α : Type} (c : Cmd) (k : c.Resp → Free χ A α) (s s' : St χ A) (r : c.Resp)
    (h : runCmd E ex c s = (.ok r, s')) : interp E ex (.op c k) s = interp E ex (k r) s' := by
  rw [interp_op]; simp only [M.bind, h]

theorem interp_useK (g : St χ A → UInt64) (k : P χ A) (s : St χ A) {i : Nat} (h : s.rt.instance_ = some i) :
    interp E ex (useK g k) s = interp E ex k (s.spend (g s)) := by
  simp only [useK, interp_ask]
  exact interp_op_ok E ex (.useGas (g s)) (fun _ => k) s _ () (useGas_run s (g s) h)

theorem interp_gasK (c : ApiCost) (k : P χ A) (s : St χ A) {i : Nat} (h : s.rt.instance_ = some i) :
    interp E ex (gasK c k) s = interp E ex k (s.spend (s.met.sched.api c)) := interp_useK E ex _ k s h

theorem interp_faultK (e : Err) (ret : Int64) (s : St χ A) {i : Nat} (h : s.rt.instance_ = some i) :
    interp E ex (faultK e ret) s = (.ok ret, s.faulted E e) := by
  simp only [faultK, interp_ask]
  rw [interp_op_ok E ex (.useGas s.gasLeft) _ s _ () (useGas_run s s.gasLeft h)]
  let s1 : St χ A := s.spend s.gasLeft
  let s2 : St χ A := { s1 with out := (s1.out.setReturnCode .executionFailed).setReturnMessage (E.errText e) }
  have h2 : runCmd E ex (.failExecution e) s1 = (.ok (), s2.withBp .executionFailed) := by
    simp only [runCmd, failExecution, M.bind_eq, M.bind, M.modify]
    exact setBreakpoint_run s2 .executionFailed (i := i) h
  rw [interp_op_ok E ex (.failExecution e) _ s1 _ () h2]
  rfl

theorem runCmd_bigGet (h : Int32) (s : St χ A) :
    runCmd E ex (.bigGet h) s = (.ok (s.big.getOne h).1, { s with big := (s.big.getOne h).2 }) := rfl
theorem runCmd_bigSet (h : Int32) (v : Int) (s : St χ A) :
    runCmd E ex (.bigSet h v) s = (.ok (), { s with big := s.big.setVal h v }) := rfl
theorem runCmd_bigPut (v : Int64) (s : St χ A) :
    runCmd E ex (.bigPut v) s = (.ok (s.big.put v).1, { s with big := (s.big.put v).2 }) := rfl

end Eei
end Arwen
