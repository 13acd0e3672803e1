import Verif.Host.Outcome
import Verif.Spec.Outcome
import Verif.Props.Errors
import Verif.Props.Memory
import Verif.Fixture
/-
C14 (failed executions have no effects), C20 (return codes of whole transactions), C24 (constructors and callbacks).
-/
namespace Arwen.Props
open Arwen Spec
variable {χ A : Type} {E : Env χ A}

/-! ### C14 -/

theorem noEffects_onError (e : Err) (w : St χ A) : NoEffects (outputOnError E e w).1 := ⟨rfl, rfl, rfl, rfl, rfl⟩

/-- **C14.** A transaction of any kind that fails has no effects, whatever the contracts, the node and the nesting; the node's
built-in functions are assumed to answer with code Ok when they answer without error (see `c14_builtin_neg`). -/
theorem c14_tx {χ : Type} {E : Env χ EeiCall} (hE : E.api = eei E) (hB : OkBuiltins E) (n : Nat) (tx : Tx) {s : St χ EeiCall} {o : VMOutput}
    (h : Outputs E n tx s o) (hc : o.returnCode ≠ .ok) : NoEffects o := by
  obtain ⟨e, w, rfl⟩ := runTx_error (finalApi_eei hE) hB n tx h hc
  exact noEffects_onError e w

/-! ### The stages of a call -/

theorem init_name : "init".toUTF8.data.toList = initName := by decide
theorem ctor_name : "solidity.ctor".toUTF8.data.toList = initEthName := by decide
theorem callBack_name : Spec.callBack = callbackName := by decide
theorem upgrade_name : "upgradeContract".toUTF8.data.toList = upgradeName := by decide

theorem outputs_call {n : Nat} {i : CallInput} {s t : St χ A} {o : VMOutput} (hu : i.function ≠ upgradeName)
    (h : callRest E (execN E n) (enterCallInput i (hostInit E s)).gasProvided (txStart E (.call i) s) = (.ok o, t)) :
    Outputs E n (.call i) s o := by
  unfold Outputs
  simp only [runTx, runCall, if_neg hu, withHost_run]
  rw [callBody_run]
  rw [show enterCallState i (hostInit E s) = txStart E (.call i) s from rfl, h]

theorem outputs_call_inv {n : Nat} {i : CallInput} {s : St χ A} {o : VMOutput} (hu : i.function ≠ upgradeName)
    (h : Outputs E n (.call i) s o) : ∃ t,
    callRest E (execN E n) (enterCallInput i (hostInit E s)).gasProvided (txStart E (.call i) s) = (.ok o, t) := by
  have ha := runTx_any (E := E) n (.call i) s
  unfold Outputs at h
  generalize (runTx E n (.call i) s).1 = r at ha h
  generalize (runTx E n (.call i) s).2 = t at ha
  subst h
  cases ha with
  | ok _ t ho => simp only [txBody, if_neg hu, callBody_run] at ho; exact ⟨_, ho⟩
  | reset _ t ho _ => simp only [txBody, if_neg hu, callBody_run] at ho; exact ⟨_, ho⟩

theorem start_acc (i : CallInput) (s : St χ A) :
    (txStart E (.call i) s).out.cur.accounts.get? i.recipient = some { balanceDelta := i.vm.callValue } := by
  have h : (txStart E (.call i) s).out = (({} : VMOutput) |> fun o => ({ (hostInit E s).out with cur := o } : OutCtx)).addTxValue i.recipient i.vm.callValue := rfl
  rw [h]
  simp only [OutCtx.addTxValue, OutCtx.modAcc, OutCtx.setAcc, OutCtx.getAcc, AMap.get?_empty, AMap.get?_insert_self]
  simp

/-- the code found at the start of a call -/
theorem start_code {i : CallInput} {s : St χ A} {ua : UserAcct} (h : E.hook.userAccount s.world i.recipient = .ok (some ua)) (hc : ua.code ≠ []) :
    ∃ v, getSCCode E (txStart E (.call i) s) = (.ok ua.code, v) ∧ v.flags = (txStart E (.call i) s).flags ∧
      v.met = (txStart E (.call i) s).met ∧ v.rt.cur = (txStart E (.call i) s).rt.cur ∧
      v.rt.instanceStack = (txStart E (.call i) s).rt.instanceStack ∧ v.world = s.world := by
  have ha := start_acc (E := E) i s
  have hl : ua.code.length ≠ 0 := by simpa using hc
  have hw : (txStart E (.call i) s).world = s.world := rfl
  have hs : (txStart E (.call i) s).rt.cur.scAddress = i.recipient := rfl
  generalize txStart E (.call i) s = u at *
  unfold getSCCode getCode OutCtx.getAcc
  rw [hs, ha]
  dsimp only
  rw [hw, h]
  simp only [if_neg hl]
  exact ⟨_, rfl, rfl, rfl, rfl, rfl, rfl⟩

/-- no code is found at the start of a call -/
theorem start_noCode {i : CallInput} {s : St χ A}
    (h : ∀ ua, E.hook.userAccount s.world i.recipient = .ok (some ua) → ua.code = []) :
    ∃ e u, getSCCode E (txStart E (.call i) s) = (.error e, u) := by
  have ha := start_acc (E := E) i s
  have hw : (txStart E (.call i) s).world = s.world := rfl
  have hs : (txStart E (.call i) s).rt.cur.scAddress = i.recipient := rfl
  generalize txStart E (.call i) s = u at *
  unfold getSCCode getCode OutCtx.getAcc
  rw [hs, ha]
  dsimp only
  rw [hw]
  cases hq : E.hook.userAccount s.world i.recipient with
  | error e => exact ⟨_, _, rfl⟩
  | ok x =>
    cases x with
    | none => exact ⟨_, _, rfl⟩
    | some ua => simp only [h ua hq]; exact ⟨_, _, rfl⟩

theorem start_fetch {i : CallInput} {s : St χ A} (h : CanFetch E s i) :
    checkGetCodeGas (txStart E (.call i) s) (enterCallInput i (hostInit E s)).gasProvided = none := by
  have hf : (txStart E (.call i) s).flags.v2 = decide (E.hook.currentEpoch s.world ≥ E.v2Epoch) := rfl
  have hm : (txStart E (.call i) s).met.sched = s.met.sched := rfl
  have hg : i.vm.gasProvided ≤ (enterCallInput i (hostInit E s)).gasProvided := by
    have : enterCallInput i (hostInit E s) = if i.vm.callType = .asynchronousCallBack
      then { i.vm with gasProvided := addU64 i.vm.gasProvided i.vm.gasLocked, gasLocked := 0 } else i.vm := rfl
    rw [this]
    split
    · simp only [UInt64.le_iff_toNat_le, addU64_toNat]
      have := i.vm.gasProvided.toNat_lt
      omega
    · exact UInt64.le_refl _
  unfold checkGetCodeGas
  rw [hf, hm]
  rw [if_neg]
  simp only [Bool.and_eq_true, decide_eq_true_eq, not_and]
  intro hv
  have := h hv
  simp only [UInt64.le_iff_toNat_le, UInt64.lt_iff_toNat_lt] at *
  omega

/-- the gas deducted at the start of a call -/
theorem start_deduct {s : St χ A} (u : St χ A) (code : Bytes) (hl : code.length < 2 ^ 64)
    (hf : u.flags.aot = decide (E.hook.currentEpoch s.world ≥ E.aotEpoch)) (hm : u.met.sched = s.met.sched) :
    (startCost E s code ≤ u.rt.cur.vmInput.gasProvided.toNat → ∃ m, deductForExecution code u =
      (.ok none, { u with met := { u.met with cur := m } }) ∧ m.gasForExecution.toNat = u.rt.cur.vmInput.gasProvided.toNat - startCost E s code) ∧
    (u.rt.cur.vmInput.gasProvided.toNat < startCost E s code → u.rt.cur.vmInput.gasProvided.toNat < 2 ^ 64 - 1 →
      deductForExecution code u = (.ok (some .notEnoughGas), u)) := by
  have hcost : ∃ base per : UInt64, deductForExecution code u = deductInitialGas code.length base per u ∧
      startCost E s code = base.toNat + code.length * per.toNat := by
    unfold deductForExecution startCost
    rw [get_bind, hf, hm]
    by_cases h : E.hook.currentEpoch s.world ≥ E.aotEpoch
    · simp only [h, decide_true, if_true]
      exact ⟨_, _, rfl, rfl⟩
    · simp only [h, decide_false, if_false, Bool.false_eq_true]
      exact ⟨_, _, rfl, by simp⟩
  obtain ⟨base, per, h1, h2⟩ := hcost
  rw [h1, h2]
  have hsat : (addU64 base (mulU64 (UInt64.ofNat code.length) per)).toNat = min (base.toNat + code.length * per.toNat) (2 ^ 64 - 1) := by
    rw [addU64_toNat, mulU64_toNat, UInt64.toNat_ofNat_of_lt' hl]
    have := base.toNat_lt
    omega
  have hp := u.rt.cur.vmInput.gasProvided.toNat_lt
  unfold deductInitialGas
  dsimp only
  refine ⟨fun h => ?_, fun h hx => ?_⟩
  · rw [if_neg (by simp only [gt_iff_lt, UInt64.lt_iff_toNat_lt]; omega)]
    refine ⟨_, rfl, ?_⟩
    rw [UInt64.toNat_sub_of_le _ _ (by simp only [UInt64.le_iff_toNat_le]; omega)]
    rw [hsat]
    omega
  · rw [if_pos (by simp only [gt_iff_lt, UInt64.lt_iff_toNat_lt]; omega)]

/-- a cold start -/
theorem start_cold {u : St χ A} {code : Bytes} (g : UInt64) (hn : u.rt.instanceStack.length < E.maxInstances) (hw : E.useWarm = false)
    (hcc : E.hook.compiledCode u.world (getCodeHash E u u.rt.cur.scAddress) = none) :
    (∀ e, E.wasm.compile code = .error e → ∃ v, startInstance E code g false u = (.ok (some e), v)) ∧
    (∀ m, E.wasm.compile code = .ok m → (∃ h, E.crypto.sha256 code = .ok h) →
      ∃ v, startInstance E code g false u = (.ok none, v) ∧ v.rt = { u.rt with instance_ := some u.nextInst } ∧
        v.insts u.nextInst = { mod := m, limit := g, mem := m.initMem, addr := u.rt.cur.scAddress } ∧ v.out = u.out ∧ v.met = u.met ∧
        v.flags = u.flags ∧ v.sto = u.sto) := by
  have h1 : setWarm E g u = (.ok false, u) := by unfold setWarm; rw [hw]; rfl
  have h2 : fromCompiled E (getCodeHash E u u.rt.cur.scAddress) g false u = (false, u) := by
    unfold fromCompiled
    split
    · rfl
    split
    · rfl
    · rw [hcc]
  have h3 : startInstance E code g false u = fromByteCode E code (getCodeHash E u u.rt.cur.scAddress) g false u := by
    unfold startInstance
    rw [get_bind, if_neg (by omega)]
    simp only [M.bind_eq, M.bind, h1, Bool.false_eq_true, if_false]
    simp only [M.get, M.lift, h2, Bool.false_eq_true, if_false]
  rw [h3]
  refine ⟨fun e he => ?_, fun m hm hs => ?_⟩
  · unfold fromByteCode
    rw [he]
    exact ⟨_, rfl⟩
  · obtain ⟨hash, hh⟩ : ∃ x, (if false || (getCodeHash E u u.rt.cur.scAddress).length = 0 then E.crypto.sha256 code
        else (.ok (getCodeHash E u u.rt.cur.scAddress) : Except Err Bytes)) = .ok x := by
      split
      · exact hs
      · exact ⟨_, rfl⟩
    unfold fromByteCode
    rw [hm]
    dsimp only
    rw [modify_bind, hh]
    dsimp only
    cases hca : E.wasm.cacheOf code with
    | error e => rw [hw]; exact ⟨_, rfl, rfl, by simp [newInstance], rfl, rfl, rfl, rfl⟩
    | ok cc => rw [hw]; exact ⟨_, rfl, rfl, by simp [newInstance], rfl, rfl, rfl, rfl⟩

/-- the end of a top-level call, from the call of the method on -/
def methodRest (E : Env χ A) (ex : Executor χ A) : M χ A VMOutput := do
  match (← callMethod E ex) with
  | some e => M.lift (outputOnError E e)
  | none => do
    let out ← M.lift (getVMOutput E)
    M.modify St.cleanInstance
    pure out

/-- the state of a call whose contract was just started -/
structure Started (E : Env χ A) (s : St χ A) (i : CallInput) (code : Bytes) (m : WasmModule A) (j : Nat) (v : St χ A) : Prop where
  inst : v.rt.instance_ = some j
  mod : v.insts j = { mod := m, limit := v.met.cur.gasForExecution, mem := m.initMem, addr := i.recipient }
  function : v.rt.cur.callFunction = i.function
  input : v.rt.cur.vmInput = i.vm
  sched : v.met.sched = s.met.sched
  msg : v.out.cur.returnMessage = []
  v2 : v.flags.v2 = decide (E.hook.currentEpoch s.world ≥ E.v2Epoch)
  gas : v.met.cur.gasForExecution.toNat = i.vm.gasProvided.toNat - startCost E s code

theorem getCode_msg (a : Addr) (s : St χ A) : (getCode E a s).2.out.cur.returnMessage = s.out.cur.returnMessage := by
  unfold getCode OutCtx.getAcc OutCtx.setAcc
  dsimp only
  split <;> (dsimp only; repeat' split) <;> rfl
theorem getSCCode_msg (s : St χ A) : (getSCCode E s).2.out.cur.returnMessage = s.out.cur.returnMessage := by
  have := getCode_msg (E := E) s.rt.cur.scAddress s
  unfold getSCCode
  generalize getCode E s.rt.cur.scAddress s = q at *
  obtain ⟨r, t⟩ := q
  cases r <;> exact this
theorem start_msg (i : CallInput) (s : St χ A) : (txStart E (.call i) s).out.cur.returnMessage = [] := rfl

theorem call_stages {ex : Executor χ A} {s : St χ A} {i : CallInput} {code : Bytes} (h : Startable E s i code) :
    (∀ e, E.wasm.compile code = .error e → ∃ v, callRest E ex (enterCallInput i (hostInit E s)).gasProvided (txStart E (.call i) s) =
      (.ok (outputOnError E .contractInvalid v).1, (outputOnError E .contractInvalid v).2) ∧ v.out.cur.returnMessage = []) ∧
    (∀ m, E.wasm.compile code = .ok m → ∃ v j, Started E s i code m j v ∧
      callRest E ex (enterCallInput i (hostInit E s)).gasProvided (txStart E (.call i) s) = methodRest E ex v) := by
  obtain ⟨ua, h1, h2, h3, h4⟩ := h.deployed
  subst h2
  obtain ⟨v, hc, f1, f2, f3, f4, e6⟩ := start_code (E := E) h1 h3
  have hmsg := getSCCode_msg (E := E) (txStart E (.call i) s)
  rw [hc, start_msg] at hmsg
  have e1 : v.flags.aot = decide (E.hook.currentEpoch s.world ≥ E.aotEpoch) := by rw [f1]; rfl
  have e2 : v.met.sched = s.met.sched := by rw [f2]; rfl
  have e3 : v.rt.cur.vmInput = i.vm := by rw [f3]; rfl
  have e4 : v.rt.cur.scAddress = i.recipient := by rw [f3]; rfl
  have e5 : v.rt.cur.callFunction = i.function := by rw [f3]; rfl
  have e7 : v.rt.instanceStack = s.rt.instanceStack := by rw [f4]; rfl
  obtain ⟨m, hd, hg⟩ := (start_deduct v ua.code h.short e1 e2).1 (by rw [e3]; exact h.gas)
  have hst := start_cold (E := E) (u := { v with met := { v.met with cur := m } }) (code := ua.code) m.gasForExecution
    (by show v.rt.instanceStack.length < _; rw [e7]; exact h.free) h.cold (by
      have : getCodeHash E { v with met := { v.met with cur := m } } v.rt.cur.scAddress = ua.codeHash := by
        unfold getCodeHash acctOf; dsimp only; rw [e4, e6, h1]
      show E.hook.compiledCode v.world (getCodeHash E { v with met := { v.met with cur := m } } v.rt.cur.scAddress) = none
      rw [this, e6]; exact h4)
  have hrun : ∀ (r : Option Err) w, startInstance E ua.code m.gasForExecution false { v with met := { v.met with cur := m } } = (.ok r, w) →
      callRest E ex (enterCallInput i (hostInit E s)).gasProvided (txStart E (.call i) s) =
        match r with
        | some _ => M.lift (outputOnError E .contractInvalid) w
        | none => methodRest E ex w := by
    intro r w hr
    unfold callRest
    rw [get_bind, start_fetch h.fetch]
    simp only [M.bind_eq, M.bind, M.lift, hc, hd, M.get, hr]
    cases r <;> rfl
  refine ⟨fun e he => ?_, fun md hm => ?_⟩
  · obtain ⟨w, hw⟩ := hst.1 e he
    refine ⟨w, hrun _ _ hw, ?_⟩
    have ho := startInstance_out hw
    rw [ho]; exact hmsg
  · obtain ⟨w, hw, w1, w2, w3, w4, w5, w6⟩ := hst.2 md hm h.hash
    refine ⟨w, v.nextInst, ⟨?_, ?_, ?_, ?_, ?_, ?_, ?_, ?_⟩, hrun _ _ hw⟩
    · rw [w1]
    · rw [w2, w4]; simp only [e4]
    · rw [w1]; exact e5
    · rw [w1]; exact e3
    · rw [w4]; exact e2
    · rw [w3]; exact hmsg
    · rw [w5]; show v.flags.v2 = _; rw [f1]; rfl
    · rw [w4]; show m.gasForExecution.toNat = _; rw [hg, e3]

/-! ### C20: the codes of whole transactions -/

section
variable {n : Nat} {i : CallInput} {s : St χ A} {code : Bytes}

/-- Gas that does not cover looking for the code: out of gas. -/
theorem c20_no_gas (hu : i.function ≠ upgradeName) (hc : i.vm.callType ≠ .asynchronousCallBack)
    (h : ¬ CanFetch E s i) : ∃ o, Outputs E n (.call i) s o ∧ o.returnCode = .outOfGas ∧ NoEffects o := by
  have hg : (enterCallInput i (hostInit E s)).gasProvided = i.vm.gasProvided := by
    have : enterCallInput i (hostInit E s) = if i.vm.callType = .asynchronousCallBack
      then { i.vm with gasProvided := addU64 i.vm.gasProvided i.vm.gasLocked, gasLocked := 0 } else i.vm := rfl
    rw [this, if_neg hc]
  have hck : checkGetCodeGas (txStart E (.call i) s) (enterCallInput i (hostInit E s)).gasProvided = some .notEnoughGas := by
    have hf : (txStart E (.call i) s).flags.v2 = decide (E.hook.currentEpoch s.world ≥ E.v2Epoch) := rfl
    have hm : (txStart E (.call i) s).met.sched = s.met.sched := rfl
    unfold checkGetCodeGas
    rw [hf, hm, hg, if_pos]
    unfold CanFetch at h
    simp only [Bool.and_eq_true, decide_eq_true_eq]
    by_cases hv : E.hook.currentEpoch s.world ≥ E.v2Epoch
    · refine ⟨hv, ?_⟩
      have : ¬ s.met.sched.getCode ≤ i.vm.gasProvided := fun hx => h fun _ => hx
      simp only [UInt64.le_iff_toNat_le, UInt64.lt_iff_toNat_lt] at *
      omega
    · exact absurd (fun hx => absurd hx hv) h
  refine ⟨(outputOnError E .notEnoughGas (txStart E (.call i) s)).1, outputs_call hu (t := (outputOnError E .notEnoughGas (txStart E (.call i) s)).2) ?_, rfl, noEffects_onError .notEnoughGas _⟩
  unfold callRest
  rw [get_bind, hck]
  rfl

/-- No code at the called address: contract not found. -/
theorem c20_no_contract (hu : i.function ≠ upgradeName) (hf : CanFetch E s i)
    (h : ∀ ua, E.hook.userAccount s.world i.recipient = .ok (some ua) → ua.code = []) :
    ∃ o, Outputs E n (.call i) s o ∧ o.returnCode = .contractNotFound ∧ NoEffects o := by
  obtain ⟨e, u, hq⟩ := start_noCode h
  refine ⟨(outputOnError E .contractNotFound u).1, outputs_call hu (t := (outputOnError E .contractNotFound u).2) ?_, rfl, noEffects_onError .contractNotFound u⟩
  unfold callRest
  rw [get_bind, start_fetch hf]
  simp only [M.bind_eq, M.bind, M.lift, hq]

/-- Gas that does not cover preparing the code: out of gas. -/
theorem c20_no_gas_code (hu : i.function ≠ upgradeName) (hf : CanFetch E s i) {ua : UserAcct}
    (h : E.hook.userAccount s.world i.recipient = .ok (some ua)) (hc : ua.code ≠ []) (hl : ua.code.length < 2 ^ 64)
    (hg : i.vm.gasProvided.toNat < startCost E s ua.code) (hx : i.vm.gasProvided.toNat < 2 ^ 64 - 1) :
    ∃ o, Outputs E n (.call i) s o ∧ o.returnCode = .outOfGas ∧ NoEffects o := by
  obtain ⟨v, hq, f1, f2, f3, f4, e6⟩ := start_code (E := E) h hc
  have hd := (start_deduct (E := E) (s := s) v ua.code hl (by rw [f1]; rfl) (by rw [f2]; rfl)).2 (by rw [f3]; exact hg) (by rw [f3]; exact hx)
  refine ⟨(outputOnError E .notEnoughGas v).1, outputs_call hu (t := (outputOnError E .notEnoughGas v).2) ?_, rfl, noEffects_onError .notEnoughGas v⟩
  unfold callRest
  rw [get_bind, start_fetch hf]
  simp only [M.bind_eq, M.bind, M.lift, hq, hd]

theorem startable_notUpgrade (h : Startable E s i code) : i.function ≠ upgradeName := by
  rw [← upgrade_name]; exact h.call

/-- Code that does not compile: contract invalid. -/
theorem c20_invalid (h : Startable E s i code) {e : Err} (he : E.wasm.compile code = .error e) :
    ∃ o, Outputs E n (.call i) s o ∧ o.returnCode = .contractInvalid ∧ NoEffects o := by
  obtain ⟨v, hv, _⟩ := (call_stages (ex := execN E n) h).1 e he
  exact ⟨(outputOnError E .contractInvalid v).1, outputs_call (startable_notUpgrade h) hv, rfl, noEffects_onError .contractInvalid v⟩

theorem methodRest_err {ex : Executor χ A} {v t : St χ A} {e : Err} (h : callMethod E ex v = (.ok (some e), t)) :
    methodRest E ex v = (.ok (outputOnError E e t).1, (outputOnError E e t).2) := by
  unfold methodRest
  simp only [M.bind_eq, M.bind, h]
  rfl

/-- A call naming a constructor: user error. -/
theorem c20_constructor (h : Startable E s i code) {m : WasmModule A} (hm : E.wasm.compile code = .ok m) (hf : IsConstructor i.function) :
    ∃ o, Outputs E n (.call i) s o ∧ o.returnCode = .userError ∧ NoEffects o := by
  obtain ⟨v, j, hv, hr⟩ := (call_stages (ex := execN E n) h).2 m hm
  have hn : isInitName v.rt.cur.callFunction = true := by
    rw [hv.function]; unfold isInitName
    rcases hf with hf | hf
    · rw [hf, init_name]; simp
    · rw [hf, ctor_name]; simp
  have hc : callMethod E (execN E n) v = (.ok (some .initFuncCalledInRun), v) := by
    unfold callMethod verifyAllowed
    rw [get_bind, if_pos hn]; rfl
  exact ⟨(outputOnError E .initFuncCalledInRun v).1, outputs_call (startable_notUpgrade h) (hr.trans (methodRest_err hc)), rfl, noEffects_onError .initFuncCalledInRun v⟩

/-- A call naming `callBack` that is not an asynchronous callback: user error. -/
theorem c20_callback (h : Startable E s i code) {m : WasmModule A} (hm : E.wasm.compile code = .ok m) (hf : i.function = Spec.callBack)
    (hc : i.vm.callType ≠ .asynchronousCallBack) :
    ∃ o, Outputs E n (.call i) s o ∧ o.returnCode = .userError ∧ NoEffects o := by
  obtain ⟨v, j, hv, hr⟩ := (call_stages (ex := execN E n) h).2 m hm
  rw [callBack_name] at hf
  have hn : isInitName v.rt.cur.callFunction = false := by
    rw [hv.function, hf]; decide
  have hc : callMethod E (execN E n) v = (.ok (some .callBackFuncCalledInRun), v) := by
    unfold callMethod verifyAllowed
    rw [get_bind, if_neg (by rw [hn]; simp), if_pos ⟨by rw [hv.function, hf], by rw [hv.input]; exact hc⟩]; rfl
  exact ⟨(outputOnError E .callBackFuncCalledInRun v).1, outputs_call (startable_notUpgrade h) (hr.trans (methodRest_err hc)), rfl, noEffects_onError .callBackFuncCalledInRun v⟩

theorem method_allowed {v : St χ A} (h1 : ¬ IsConstructor i.function) (h2 : i.function ≠ Spec.callBack) (hf : v.rt.cur.callFunction = i.function) :
    verifyAllowed v = none := by
  unfold verifyAllowed
  rw [callBack_name] at h2
  rw [if_neg, if_neg]
  · rw [hf]; exact fun h => h2 h.1
  · rw [hf]; unfold isInitName
    unfold IsConstructor at h1
    rw [init_name, ctor_name] at h1
    simpa using h1

/-- A call naming a function that the contract does not have: function not found. -/
theorem c20_unknown (h : Startable E s i code) {m : WasmModule A} (hm : E.wasm.compile code = .ok m) (hi : ¬ IsConstructor i.function)
    (hb : i.function ≠ Spec.callBack) (hc : i.vm.callType ≠ .asynchronousCallBack) (hf : m.fn i.function = none) :
    ∃ o, Outputs E n (.call i) s o ∧ o.returnCode = .functionNotFound ∧ NoEffects o := by
  obtain ⟨v, j, hv, hr⟩ := (call_stages (ex := execN E n) h).2 m hm
  have hc : callMethod E (execN E n) v = (.ok (some .funcNotFound), v) := by
    have hg : getFunctionToCall v = (.ok (.error .funcNotFound), v) := by
      unfold getFunctionToCall
      simp only [M.bind_eq, M.bind, curInst, hv.inst, M.get, hv.mod, hv.function, hf]
      rw [if_neg (by rw [← callBack_name]; exact hb)]; rfl
    have hfn : functionByCallType E i.vm.callType v = (.ok (.error .funcNotFound), v) := by
      unfold functionByCallType
      rw [if_pos hc]
      simp only [M.bind_eq, M.bind, hg]; rfl
    unfold callMethod
    rw [get_bind, method_allowed hi hb hv.function]
    simp only [hv.input, M.bind_eq, M.bind, hfn]
    rw [if_neg (by rintro ⟨h, _⟩; exact hc h)]; rfl
  exact ⟨(outputOnError E .funcNotFound v).1, outputs_call (startable_notUpgrade h) (hr.trans (methodRest_err hc)), rfl, noEffects_onError .funcNotFound v⟩

/-- the error of a program that Wasmer stopped, by the breakpoint left -/
def stopError : Breakpoint → Option Err
  | .none => some .executionFailed
  | .executionFailed => some .executionFailed
  | .signalError => some .signalError
  | .outOfGas => some .notEnoughGas
  | .asyncCall => none

/-- The called function ran and was stopped: by an error the contract signalled, by gas, or by any other failure. The contract's
message is reported if it set one. -/
theorem c20_stopped (h : Startable E s i code) {m : WasmModule A} (hm : E.wasm.compile code = .ok m) (hi : ¬ IsConstructor i.function)
    (hb : i.function ≠ Spec.callBack) (hc : i.vm.callType ≠ .asynchronousCallBack) {f : Prog A} (hf : m.fn i.function = some f) :
    ∃ v j, Started E s i code m j v ∧ ∀ t e, runProg E (execN E n) j f v = (.ok false, t) → stopError (t.insts j).bp = some e →
      t.rt.instance_ = some j → ∃ o, Outputs E n (.call i) s o ∧ NoEffects o ∧
        o.returnCode = (match (t.insts j).bp with | .signalError => .userError | .outOfGas => .outOfGas | _ => .executionFailed) ∧
        o.returnMessage = if (t.insts j).bp = .signalError ∨ t.out.cur.returnMessage ≠ [] then t.out.cur.returnMessage else E.errText e := by
  obtain ⟨v, j, hv, hr⟩ := (call_stages (ex := execN E n) h).2 m hm
  refine ⟨v, j, hv, fun t e ht he hj => ?_⟩
  have hg : getFunctionToCall v = (.ok (.ok f), v) := by
    unfold getFunctionToCall
    simp only [M.bind_eq, M.bind, curInst, hv.inst, M.get, hv.mod, hv.function, hf]; rfl
  have hfn : functionByCallType E i.vm.callType v = (.ok (.ok (some f)), v) := by
    unfold functionByCallType
    rw [if_pos hc]
    simp only [M.bind_eq, M.bind, hg]; rfl
  have hcf : callFunction E (execN E n) f v = (.ok (some e), t) := by
    unfold callFunction
    rw [get_bind, hv.inst]
    simp only [M.bind_eq, M.bind, ht, Bool.false_eq_true, if_false]
    unfold handleBreakpoint
    simp only [M.bind_eq, M.bind, getBreakpoint, hj]
    revert he
    cases (t.insts j).bp <;> intro he <;> simp only [stopError, Option.some.injEq, reduceCtorEq] at he <;> subst he <;> rfl
  have hc : callMethod E (execN E n) v = (.ok (some e), t) := by
    unfold callMethod
    rw [get_bind, method_allowed hi hb hv.function]
    simp only [hv.input, M.bind_eq, M.bind, hfn, hcf]; rfl
  refine ⟨(outputOnError E e t).1, outputs_call (startable_notUpgrade h) (hr.trans (methodRest_err hc)), noEffects_onError e t, ?_, ?_⟩
  · revert he
    cases (t.insts j).bp <;> intro he <;> simp only [stopError, Option.some.injEq, reduceCtorEq] at he <;> subst he <;> rfl
  · revert he
    cases (t.insts j).bp <;> intro he <;> simp only [stopError, Option.some.injEq, reduceCtorEq] at he <;> subst he <;>
      simp [outputOnError, Err.isA, Err.unwrap]
    all_goals
      by_cases hx : t.out.cur.returnMessage = []
      · simp [hx]
      · simp [hx, List.length_pos_iff.2 hx]

/-- The called function ran to its end, but an API function at its end took more gas than there was: out of gas, without effects, when the
rules of version 2 are in force. -/
theorem c20_overrun (h : Startable E s i code) {m : WasmModule A} (hm : E.wasm.compile code = .ok m) (hi : ¬ IsConstructor i.function)
    (hb : i.function ≠ Spec.callBack) (hc : i.vm.callType ≠ .asynchronousCallBack) {f : Prog A} (hf : m.fn i.function = some f)
    (h2 : E.hook.currentEpoch s.world ≥ E.v2Epoch) :
    ∃ v j, Started E s i code m j v ∧ ∀ t, runProg E (execN E n) j f v = (.ok true, t) → t.met.cur.gasForExecution < (t.insts j).points →
      ∃ o, Outputs E n (.call i) s o ∧ NoEffects o ∧ o.returnCode = .outOfGas := by
  obtain ⟨v, j, hv, hr⟩ := (call_stages (ex := execN E n) h).2 m hm
  refine ⟨v, j, hv, fun t ht ho => ?_⟩
  have hg : getFunctionToCall v = (.ok (.ok f), v) := by
    unfold getFunctionToCall
    simp only [M.bind_eq, M.bind, curInst, hv.inst, M.get, hv.mod, hv.function, hf]; rfl
  have hfn : functionByCallType E i.vm.callType v = (.ok (.ok (some f)), v) := by
    unfold functionByCallType
    rw [if_pos hc]
    simp only [M.bind_eq, M.bind, hg]; rfl
  have hcf : callFunction E (execN E n) f v = (.ok none, t) := by
    unfold callFunction
    rw [get_bind, hv.inst]
    simp only [M.bind_eq, M.bind, ht]; rfl
  have hF := frameEx_execN E n
  have hsim := sim_runProg (E := E) (back := true) hF.keeps j f v hv.inst
  have hfl : t.flags = v.flags := ((SimAt.up hsim).frame hF ht (by intro h; cases h)).flags
  have hj : t.rt.instance_ = some j := by
    unfold SimAt at hsim
    rw [ht] at hsim
    exact hsim.inst_eq.trans hv.inst
  have hck : checkFinalGas t = some .notEnoughGas := by
    have hp : t.pointsUsed = (t.insts j).points := by unfold St.pointsUsed; rw [hj]
    have hv2 : t.flags.v2 = true := by rw [hfl, hv.v2]; exact decide_eq_true h2
    unfold checkFinalGas
    rw [hv2, hp, if_neg (by decide), if_pos ho]
  have hc : callMethod E (execN E n) v = (.ok (some .notEnoughGas), t) := by
    unfold callMethod
    rw [get_bind, method_allowed hi hb hv.function]
    simp only [hv.input, M.bind_eq, M.bind, hfn, hcf, M.gets, hck]; rfl
  exact ⟨_, outputs_call (startable_notUpgrade h) (hr.trans (methodRest_err hc)), noEffects_onError _ t, rfl⟩

end

/-- Every transaction that fails reports the documented code of the error it ended with, and the text of that error as its message, unless
the contract has left a message (always the case of a signalled error). -/
theorem c20_tx {χ : Type} {E : Env χ EeiCall} (hE : E.api = eei E) (hB : OkBuiltins E) (n : Nat) (tx : Tx) {s : St χ EeiCall} {o : VMOutput}
    (h : Outputs E n tx s o) (hc : o.returnCode ≠ .ok) :
    ∃ (e : Err) (left : Bytes), Documented (fun t => Cause (.declared t) (goErr e)) o.returnCode ∧
      o.returnMessage = if e = .signalError ∨ left ≠ [] then left else E.errText e := by
  obtain ⟨e, w, rfl⟩ := runTx_error (finalApi_eei hE) hB n tx h hc
  refine ⟨e, w.out.cur.returnMessage, (c20_code e).1, ?_⟩
  have hm := (c20_output E e w).2
  by_cases h1 : e = .signalError
  · rw [if_pos (Or.inl h1), hm.1 h1]
  · by_cases h2 : w.out.cur.returnMessage = []
    · rw [if_neg (by simp [h1, h2]), hm.2 h2 h1]
    · rw [if_pos (Or.inr h2)]
      simp [outputOnError, h2]

/-- Signalling an error: the program stops at once, and the message is the one in the contract's memory. -/
theorem c20_signal {χ : Type} {E : Env χ EeiCall} (hE : E.api = eei E) (ex : Executor χ EeiCall) (off len : Int32) (k : Int64 → Prog EeiCall)
    (u : St χ EeiCall) {j : Nat} (hj : u.rt.instance_ = some j) (hm : (u.insts j).mem.length < 2 ^ 31)
    (ho : 0 ≤ off.toInt) (hl : 0 < len.toInt) (hb : off.toInt ≤ (u.insts j).mem.length) :
    ∃ t, runProg E ex j (.call (.signalError off len) k) u = (.ok false, t) ∧ (t.insts j).bp = .signalError ∧
      t.rt = u.rt ∧ t.out.cur.returnMessage = bytesFrom (u.insts j).mem off.toInt.toNat len.toInt.toNat := by
  let u1 : St χ EeiCall := u.spend (u.met.sched.api .signalError)
  have hmem : (u1.insts j).mem = (u.insts j).mem := by
    show (if u.rt.instance_ = some j then _ else _ : Inst EeiCall).mem = _
    rw [if_pos hj]
  let msg := bytesFrom (u.insts j).mem off.toInt.toNat len.toInt.toNat
  have hload : memLoad u1 off len = .ok (.ok msg) := by
    rw [c21_host_load u1 off len (i := j) hj (by rw [hmem]; exact hm), hmem, if_neg (by omega), if_neg (by omega), if_neg (by omega)]
  let u2 : St χ EeiCall := { u1 with out := (u1.out.setReturnCode .userError).setReturnMessage msg }
  have hs : runCmd E ex (.signalUserError msg) u1 = (.ok (), u2.withBp .signalError) := by
    simp only [runCmd, signalUserError, M.bind_eq, M.bind, M.modify]
    exact setBreakpoint_run u2 .signalError (i := j) hj
  have hrun : interp E ex (E.api (.signalError off len)) u = (.ok 0, u2.withBp .signalError) := by
    rw [hE]
    show interp E ex (Eei.gasK .signalError _) u = _
    rw [Eei.interp_gasK E ex _ _ u hj]
    show interp E ex (Eei.loadEK off len _) u1 = _
    unfold Eei.loadEK
    rw [Eei.interp_ask, hload]
    dsimp only
    rw [Eei.interp_op_ok E ex (.signalUserError msg) _ u1 _ () hs]
    rfl
  have hbp : ((u2.withBp .signalError).insts j).bp = .signalError := by
    show (if u.rt.instance_ = some j then _ else _ : Inst EeiCall).bp = _
    rw [if_pos hj]
  refine ⟨u2.withBp .signalError, ?_, hbp, rfl, rfl⟩
  unfold runProg
  simp only [M.bind_eq, M.bind, hrun, M.get, hbp]
  rfl

/-! ### C24 -/

theorem deductForExecution_rt {code : Bytes} {s t : St χ A} {r : Option Err} (h : deductForExecution code s = (.ok r, t)) :
    t.rt.cur = s.rt.cur := by
  have key : ∀ n b c, deductInitialGas n b c s = (.ok r, t) → t.rt.cur = s.rt.cur := by
    intro n b c h
    unfold deductInitialGas at h
    dsimp only at h
    split at h
    all_goals
      simp only [Prod.mk.injEq] at h
      rw [← h.2]
  unfold deductForExecution at h
  rw [get_bind] at h
  split at h
  · exact key _ _ _ h
  · exact key _ _ _ h

theorem c24_refused {n : Nat} {i : CallInput} {s : St χ A} {o : VMOutput} {e : Err} (hu : i.function ≠ upgradeName)
    (h : Outputs E n (.call i) s o)
    (hv : ∀ v : St χ A, v.rt.cur.vmInput.callType = i.vm.callType → v.rt.cur.callFunction = i.function → verifyAllowed v = some e) :
    o.returnCode ≠ .ok ∧ NoEffects o := by
  obtain ⟨t, h⟩ := outputs_call_inv hu h
  have hf : (txStart E (.call i) s).rt.cur.callFunction = i.function := rfl
  have hi : (txStart E (.call i) s).rt.cur.vmInput.callType = i.vm.callType := rfl
  have herr : ∀ (e : Err) (w u : St χ A), M.lift (outputOnError E e) w = (.ok o, u) → o.returnCode ≠ .ok ∧ NoEffects o := by
    intro e w u hq
    simp only [M.lift, Prod.mk.injEq, Res.ok.injEq] at hq
    rw [← hq.1]
    exact ⟨resolveReturnCode_ne e, noEffects_onError e w⟩
  unfold callRest at h
  rw [get_bind] at h
  generalize txStart E (.call i) s = w at h hf hi
  generalize checkGetCodeGas w _ = q at h
  cases q with
  | some q => exact herr _ _ _ h
  | none =>
  rcases bind_ok h with ⟨r, u, h1, h⟩ | ⟨_, h⟩ | ⟨_, h⟩
  · have hu : u.rt.cur = w.rt.cur := by
      simp only [M.lift, Prod.mk.injEq] at h1
      rw [← h1.2, getSCCode_rt]
    split at h
    · exact herr _ _ _ h
    rcases bind_ok h with ⟨r, x, h2, h⟩ | ⟨_, h⟩ | ⟨_, h⟩
    · have hx := deductForExecution_rt h2
      split at h
      · exact herr _ _ _ h
      rw [get_bind] at h
      rcases bind_ok h with ⟨r, y, h3, h⟩ | ⟨_, h⟩ | ⟨_, h⟩
      · have hy := (startInstance_cur h3).1
        split at h
        · exact herr _ _ _ h
        rw [hx, hu] at hy
        have hc : callMethod E (execN E n) y = (.ok (some e), y) := by
          unfold callMethod
          rw [get_bind, hv y (by rw [hy]; exact hi) (by rw [hy]; exact hf)]; rfl
        simp only [M.bind_eq, M.bind, hc] at h
        exact herr _ _ _ h
      · cases h
      · cases h
    · cases h
    · cases h
  · cases h
  · cases h


/-- Every call naming a constructor fails, whatever the contract, and has no effects. -/
theorem c24_constructor {n : Nat} {i : CallInput} {s : St χ A} {o : VMOutput} (hf : IsConstructor i.function)
    (h : Outputs E n (.call i) s o) : o.returnCode ≠ .ok ∧ NoEffects o := by
  have hu : i.function ≠ upgradeName := by
    rcases hf with hf | hf <;> rw [hf] <;> decide
  have hn : isInitName i.function = true := by
    unfold isInitName
    rcases hf with hf | hf
    · rw [hf, init_name]; simp
    · rw [hf, ctor_name]; simp
  refine c24_refused (e := .initFuncCalledInRun) hu h fun v hv hc => ?_
  unfold verifyAllowed
  rw [hc, if_pos hn]

/-- Every call naming `callBack` that is not an asynchronous callback fails, whatever the contract, and has no effects. -/
theorem c24_callback {n : Nat} {i : CallInput} {s : St χ A} {o : VMOutput} (hf : i.function = Spec.callBack)
    (hc : i.vm.callType ≠ .asynchronousCallBack) (h : Outputs E n (.call i) s o) : o.returnCode ≠ .ok ∧ NoEffects o := by
  rw [callBack_name] at hf
  have hu : i.function ≠ upgradeName := by rw [hf]; decide
  refine c24_refused (e := .callBackFuncCalledInRun) hu h fun v hv hn => ?_
  unfold verifyAllowed
  rw [hn, hf, if_neg (by decide), if_pos ⟨rfl, by rw [hv]; exact hc⟩]

theorem execute_init (ex : Executor χ A) (i : CallInput) (s : St χ A) (h : isInitName s.rt.cur.callFunction = true) (ha : i.allowInit = false) :
    execute E ex i s = (.ok (some .initFuncCalledInRun), s) := by
  unfold execute
  rw [get_bind, h, ha]; rfl

theorem isInit_of {f : Bytes} (hf : IsConstructor f) : isInitName f = true := by
  unfold isInitName
  rcases hf with hf | hf
  · rw [hf, init_name]; simp
  · rw [hf, ctor_name]; simp

theorem copyTx_fn (s : St χ A) (i : CallInput) : (copyTxHashes s i).function = i.function := by
  unfold copyTxHashes; split <;> rfl
theorem copyTx_init (s : St χ A) (i : CallInput) : (copyTxHashes s i).allowInit = i.allowInit := by
  unfold copyTxHashes; split <;> rfl
theorem enterSame_fn (i : CallInput) (s : St χ A) : (enterSameState E i s).rt.cur.callFunction = i.function :=
  copyTx_fn { s with big := s.big.push, out := s.out.push } i
theorem enterSame_init (i : CallInput) (s : St χ A) : (enterSameInput E i s).allowInit = i.allowInit :=
  copyTx_init { s with big := s.big.push, out := s.out.push } i
theorem enterDest_fn (i : CallInput) (s : St χ A) : (enterDestState i s).rt.cur.callFunction = i.function :=
  copyTx_fn { s with big := s.big.push.initState, out := s.out.push.censor } i
theorem enterDest_init (i : CallInput) (s : St χ A) : (enterDestInput i s).allowInit = i.allowInit :=
  copyTx_init { s with big := s.big.push.initState, out := s.out.push.censor } i

/-- the value transfer at the start of a call -/
def payDest (E : Env χ A) (i : CallInput) : M χ A (Option Err) :=
  if i.vm.callType ≠ .asynchronousCallBack ∨ i.vm.callValue = 0
    then M.lift (transferValueOnly E i.recipient i.vm.caller i.vm.callValue false) else pure none
theorem bodyDest_run' (ex : Executor χ A) (i : CallInput) : bodyDest E ex i = (payDest E i >>= fun e =>
    match e with
    | some e => pure (none, some e)
    | none => do
      match (← execute E ex i) with
      | some e => pure (none, some e)
      | none => do
        let s ← M.get
        let (info, r) ← processAsyncInfo E ex s.rt.cur.asyncContextInfo
        match r with
        | .error e => pure (some info, some e)
        | .ok _ => pure (some info, none)) := by
  unfold bodyDest payDest
  split <;> rfl

/-- A contract calling another contract's constructor on its context is refused. -/
theorem c24_dest {n : Nat} {i : CallInput} {s t : St χ A} {r : DestResult} (hf : IsConstructor i.function) (ha : i.allowInit = false)
    (hb : E.isBuiltin i.function = false) (h : (execN E n).dest i s = (.ok r, t)) : r.err ≠ none := by
  cases n with
  | zero => simp [execN, M.oof] at h
  | succ n =>
    rcases execDest_any i s t _ h with ⟨a', he, h⟩ | ⟨h, _⟩ | ⟨h, _⟩
    · cases he
      cases h with
      | failed t e _ hx => rw [hb] at hx; cases hx
      | builtin t out _ hx => rw [hb] at hx; cases hx
      | called t u v j info e r _ hx hbody hfin =>
        obtain ⟨rfl, rfl⟩ := hx hb
        have he : e ≠ none := by
          rw [bodyDest_run'] at hbody
          rcases bind_ok hbody with ⟨a, w, h1, h2⟩ | ⟨_, h2⟩ | ⟨_, h2⟩
          · have hw : w.rt = (enterDestState j (St.bcPush E s)).rt := by
              unfold payDest at h1
              split at h1
              · simp only [M.lift, Prod.mk.injEq] at h1
                rw [← h1.2, transferValueOnly_rt]
              · simp only [M.pure_eq, M.pure, Prod.mk.injEq] at h1
                rw [← h1.2]
            cases a with
            | some a =>
              simp only [M.pure_eq, M.pure, Prod.mk.injEq, Res.ok.injEq] at h2
              rw [← h2.1.2]; simp
            | none =>
              have hx := execute_init (E := E) (execN E n) (enterDestInput j (St.bcPush E s)) w
                (by rw [hw, enterDest_fn]; exact isInit_of hf) (by rw [enterDest_init]; exact ha)
              simp only [M.bind_eq, M.bind, hx, M.pure_eq, M.pure, Prod.mk.injEq, Res.ok.injEq] at h2
              rw [← h2.1.2]; simp
          · cases h2
          · cases h2
        cases e with
        | none => exact absurd rfl he
        | some e =>
          unfold finDest at hfin
          rcases bind_ok hfin with ⟨a, w, h1, h2⟩ | ⟨_, h2⟩ | ⟨_, h2⟩
          · simp only [M.pure_eq, M.pure, Prod.mk.injEq, Res.ok.injEq] at h2
            rw [← h2.1]; simp
          · cases h2
          · cases h2
    · cases h
    · cases h

/-- A contract calling another contract's constructor on its own context is refused. -/
theorem c24_same {n : Nat} {i : CallInput} {s t : St χ A} {r : Option Err} (hf : IsConstructor i.function) (ha : i.allowInit = false)
    (h : (execN E n).same i s = (.ok r, t)) : r ≠ none := by
  cases n with
  | zero => simp [execN, M.oof] at h
  | succ n =>
    rcases execSame_any i s t _ h with ⟨h, _⟩ | ⟨_, ⟨e, u, h1, h⟩ | ⟨h, _⟩ | ⟨h, _⟩⟩
    · cases h; simp
    · rcases h with ⟨h, _⟩ | ⟨h, _⟩
      · cases h
        unfold bodySame at h1
        rcases bind_ok h1 with ⟨a, w, h1, h2⟩ | ⟨_, h2⟩ | ⟨_, h2⟩
        · have hw : w.rt = (enterSameState E i s).rt := by
            simp only [M.lift, Prod.mk.injEq] at h1
            rw [← h1.2, transferValueOnly_rt]
          cases a with
          | some a =>
            simp only [M.pure_eq, M.pure, Prod.mk.injEq, Res.ok.injEq] at h2
            rw [← h2.1]; simp
          | none =>
            have hx := execute_init (E := E) (execN E n) (enterSameInput E i s) w (by rw [hw, enterSame_fn]; exact isInit_of hf) (by rw [enterSame_init]; exact ha)
            have h2 : execute E (execN E n) (enterSameInput E i s) w = _ := h2
            rw [hx] at h2
            simp only [Prod.mk.injEq, Res.ok.injEq] at h2
            rw [← h2.1]; simp
        · cases h2
        · cases h2
      · cases h
    · cases h
    · cases h

/-- No API function asks for a constructor to be run, except by deploying a contract. -/
theorem c24_api {χ : Type} {E : Env χ EeiCall} (hE : E.api = eei E) (i : CallInput)
    (h : ApiRuns E (.executeOnDest i) ∨ ApiRuns E (.executeOnSame i) ∨ ApiRuns E (.executeReadOnly i)) : i.allowInit = false := by
  have key : ∀ c, ApiRuns E c → c.noInit = true := by
    rintro c ⟨a, h⟩
    rw [hE] at h
    refine Decidable.byContradiction fun hc => ?_
    exact Eei.Only.not_mayRun (fun k hk => hc hk.2.2) (Eei.eei_proper E a) h
  rcases h with h | h | h <;> simpa [Cmd.noInit] using key _ h

/-! ### Concrete cases -/

open Fixture in
theorem okBuiltins_fixture (mods : List (Bytes × WasmModule EeiCall)) (warm : Bool) : OkBuiltins (envWith mods warm) := by
  intro w i b h
  have h : (Except.ok { out := { gasRemaining := 0 } } : Except Err BuiltinOutput) = .ok b := h
  cases h; rfl

/-- a contract that changes storage, pays, logs and then signals an error -/
def badCode : Bytes := [1, 2]
open Fixture in
def badMod : WasmModule EeiCall := mod [(Fixture.f, put [1] [2] <| send (addr 3) 5 <| log [7] signal)]
open Fixture in
def badEnv : Env World EeiCall := envWith [(badCode, badMod)]
open Fixture in
def badHost : St World EeiCall := host (node [(addr 100, contract badCode 50)])
/-- the call of its function -/
def badCall (fn : Bytes) (gas : UInt64) : CallInput :=
  { vm := { caller := Fixture.addr 1, gasProvided := gas }, recipient := Fixture.addr 100, function := fn }

theorem badCall_startable (fn : Bytes) (gas : UInt64) (hf : fn ≠ "upgradeContract".toUTF8.data.toList) (hg : 3 ≤ gas.toNat) :
    Startable badEnv badHost (badCall fn gas) badCode where
  call := hf
  fetch := fun _ => by
    show (1 : UInt64) ≤ gas
    rw [UInt64.le_iff_toNat_le]
    have : (1 : UInt64).toNat = 1 := rfl
    omega
  short := by decide
  deployed := ⟨Fixture.contract badCode 50, by
    have : badEnv.hook.userAccount badHost.world (badCall fn gas).recipient = .ok ((Fixture.World.cur badHost.world).accts.get? (Fixture.addr 100)) := rfl
    rw [this]
    have : (Fixture.World.cur badHost.world).accts.get? (Fixture.addr 100) = some (Fixture.contract badCode 50) := by decide +kernel
    rw [this], rfl, by decide, by decide +kernel⟩
  gas := by
    have : startCost badEnv badHost badCode = 3 := by decide +kernel
    rw [this]; exact hg
  cold := rfl
  hash := ⟨_, rfl⟩
  free := by decide

/-- a contract that only signals an error; its memory starts with the message -/
def sigMod : WasmModule EeiCall :=
  { exports := [(Fixture.f, .call (.signalError 1 2) fun _ => .ret)], signature := fun _ => some (0, 0), imports := fun _ => false, hasMemory := true, initMem := [9, 8, 7] }
def sigEnv : Env Fixture.World EeiCall := Fixture.envWith [(badCode, sigMod)]

theorem sigCall_startable : Startable sigEnv badHost (badCall Fixture.f 1000) badCode where
  call := by decide
  fetch := fun _ => by decide
  short := by decide
  deployed := (badCall_startable Fixture.f 1000 (by decide) (by decide)).deployed
  gas := by decide +kernel
  cold := rfl
  hash := ⟨_, rfl⟩
  free := by decide

/-- C20: the whole way of a signalled error, with the contract's message -/
example : ∃ o, Outputs sigEnv 2 (.call (badCall Fixture.f 1000)) badHost o ∧ o.returnCode = .userError ∧ o.returnMessage = [8, 7] := by
  obtain ⟨v, j, hv, h⟩ := c20_stopped (n := 2) (m := sigMod) sigCall_startable rfl
    (by unfold IsConstructor; decide) (by decide) (by decide) rfl
  have hm : (v.insts j).mem = [9, 8, 7] := by rw [hv.mod]; rfl
  obtain ⟨t, h1, h2, h3, h4⟩ := c20_signal (E := sigEnv) rfl (execN sigEnv 2) 1 2 (fun _ => .ret) v hv.inst (by rw [hm]; decide)
    (by decide) (by decide) (by rw [hm]; decide)
  obtain ⟨o, ho, _, hc, hr⟩ := h t .signalError h1 (by rw [h2]; rfl) (by rw [h3]; exact hv.inst)
  rw [h2] at hc hr
  refine ⟨o, ho, hc, ?_⟩
  rw [hr, if_pos (.inl rfl), h4, hm]
  decide

/-- C20: code that is not valid -/
example : ∃ o, Outputs (Fixture.envWith []) 2 (.call (badCall Fixture.f 1000)) badHost o ∧ o.returnCode = .contractInvalid ∧ NoEffects o :=
  c20_invalid (code := badCode) (e := .wasm 1) ⟨by decide, fun _ => by decide, by decide,
    (badCall_startable Fixture.f 1000 (by decide) (by decide)).deployed, by decide +kernel, rfl, ⟨_, rfl⟩, by decide⟩ rfl

/-- C14: the hypotheses are met, and the conclusion says something: the contract did change things before failing. -/
example : ∃ o, Outputs badEnv 2 (.call (badCall Fixture.f 1000)) badHost o ∧ o.returnCode = .userError ∧ NoEffects o := by
  have h : (match runTx badEnv 2 (.call (badCall Fixture.f 1000)) badHost with
      | (some (some o), _) => decide (o.returnCode = .userError) | _ => false) = true := by decide +kernel
  generalize hq : runTx badEnv 2 (.call (badCall Fixture.f 1000)) badHost = q at h
  obtain ⟨r, t⟩ := q
  match r with
  | some (some o) =>
    have hc : o.returnCode = .userError := of_decide_eq_true h
    have ho : Outputs badEnv 2 (.call (badCall Fixture.f 1000)) badHost o := by unfold Outputs; rw [hq]
    exact ⟨o, ho, hc, c14_tx rfl (okBuiltins_fixture _ _) 2 _ ho (by rw [hc]; decide)⟩
  | some none => cases h
  | none => cases h

/-- C20: no gas, no contract, no gas for the code, an unknown function, a constructor, `callBack`. -/
example : ∃ o, Outputs badEnv 2 (.call (badCall Fixture.f 0)) badHost o ∧ o.returnCode = .outOfGas ∧ NoEffects o :=
  c20_no_gas (by decide) (by decide) (fun h => absurd (h (by decide)) (by decide))
example : ∃ o, Outputs badEnv 2 (.call { badCall Fixture.f 5 with recipient := Fixture.addr 101 }) badHost o ∧
    o.returnCode = .contractNotFound ∧ NoEffects o := by
  refine c20_no_contract (by decide) (fun _ => by decide) fun ua h => ?_
  have h : (Except.ok ((Fixture.World.cur badHost.world).accts.get? (Fixture.addr 101)) : Except Err (Option UserAcct)) = .ok (some ua) := h
  have hn : (Fixture.World.cur badHost.world).accts.get? (Fixture.addr 101) = none := by decide +kernel
  rw [hn] at h; cases h
example : ∃ o, Outputs badEnv 2 (.call (badCall Fixture.f 2)) badHost o ∧ o.returnCode = .outOfGas ∧ NoEffects o := by
  refine c20_no_gas_code (ua := Fixture.contract badCode 50) (by decide) (fun _ => by decide) ?_ (by decide) (by decide) (by decide +kernel) (by decide)
  have : (Fixture.World.cur badHost.world).accts.get? (Fixture.addr 100) = some (Fixture.contract badCode 50) := by decide +kernel
  exact congrArg Except.ok this
example : ∃ o, Outputs badEnv 2 (.call (badCall Fixture.g 1000)) badHost o ∧ o.returnCode = .functionNotFound ∧ NoEffects o :=
  c20_unknown (m := badMod) (badCall_startable _ _ (by decide) (by decide)) rfl (by unfold IsConstructor; decide) (by decide) (by decide) (by decide)
example : ∃ o, Outputs badEnv 2 (.call (badCall "init".toUTF8.data.toList 1000)) badHost o ∧ o.returnCode = .userError ∧ NoEffects o :=
  c20_constructor (m := badMod) (badCall_startable _ _ (by decide) (by decide)) rfl (.inl rfl)
example : ∃ o, Outputs badEnv 2 (.call (badCall Spec.callBack 1000)) badHost o ∧ o.returnCode = .userError ∧ NoEffects o :=
  c20_callback (m := badMod) (badCall_startable _ _ (by decide) (by decide)) rfl rfl (by decide)

/-- a contract whose last step costs more gas than it was given -/
def overEnv : Env Fixture.World EeiCall := Fixture.envWith [(badCode, Fixture.mod [(Fixture.f, .call (.finish 0 400) fun _ => .ret)])]
example : Fixture.codeOf (runTx overEnv 2 (.call (badCall Fixture.f 300)) badHost) = some .outOfGas := by decide +kernel
example : Fixture.codeOf (runTx overEnv 2 (.call (badCall Fixture.f 500)) badHost) = some .ok := by decide +kernel

/-- C24: a contract with `init` and `callBack`, and one calling the first one's `init` -/
def initName' : Bytes := "init".toUTF8.data.toList
open Fixture in
def ctorEnv : Env World EeiCall := envWith [(badCode, mod [(initName', .ret), (Spec.callBack, .ret)]),
  ([5], mod [(Fixture.f, callDest (addr 100) initName' 100 .ret)])]
open Fixture in
def ctorHost : St World EeiCall := host (node [(addr 100, contract badCode 50), (addr 101, contract [5] 50)])
example : Fixture.codeOf (runTx ctorEnv 2 (.call (badCall initName' 1000)) ctorHost) = some .userError := by decide +kernel
example : Fixture.codeOf (runTx ctorEnv 2 (.call (badCall Spec.callBack 1000)) ctorHost) = some .userError := by decide +kernel
example : Fixture.codeOf (runTx ctorEnv 2 (.call { badCall Spec.callBack 1000 with vm := { (badCall Spec.callBack 1000).vm with
    callType := .asynchronousCallBack, args := [[0]] } }) ctorHost) = some .ok := by decide +kernel
example : Fixture.codeOf (runTx ctorEnv 2 (.call { badCall Fixture.f 1000 with recipient := Fixture.addr 101 }) ctorHost) = some .executionFailed := by
  decide +kernel

/-! ### A built-in function that reports a failure without an error -/

/-- the node answers a built-in call with the code "user error" and no error -/
def rcHook : Hook Fixture.World :=
  { Fixture.hook with processBuiltIn := fun w _ => (.ok { out := { returnCode := .userError } }, w) }
open Fixture in
def rcEnv : Env World EeiCall :=
  Env.real { envWith [(badCode, mod [(Fixture.f, put [1] [2] <| callDest (addr 101) [66, 73] 10 .ret)])] with hook := rcHook }

/-- Without the assumption on built-in functions the property fails: the contract ends normally, the output has the code of the
built-in function, and all effects are there. -/
theorem c14_builtin_neg : ∃ (E : Env Fixture.World EeiCall) (n : Nat) (tx : Tx) (s : St Fixture.World EeiCall) (o : VMOutput),
    E.api = eei E ∧ Outputs E n tx s o ∧ o.returnCode ≠ .ok ∧ ¬ NoEffects o := by
  have h : (match runTx rcEnv 2 (.call (badCall Fixture.f 1000)) badHost with
      | (some (some o), _) => decide (o.returnCode = .userError ∧ o.gasRemaining ≠ 0 ∧
          ((o.accounts.get? (Fixture.addr 100)).map fun a => a.storage.get? [1]) ≠ some none) | _ => false) = true := by decide +kernel
  generalize hq : runTx rcEnv 2 (.call (badCall Fixture.f 1000)) badHost = q at h
  obtain ⟨r, t⟩ := q
  match r with
  | some (some o) =>
    have hc := of_decide_eq_true h
    exact ⟨rcEnv, 2, _, badHost, o, rfl, by unfold Outputs; rw [hq], by rw [hc.1]; decide, fun hn => hc.2.1 hn.gas⟩
  | some none => cases h
  | none => cases h

end Arwen.Props
