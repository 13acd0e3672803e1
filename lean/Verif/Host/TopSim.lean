import Verif.Host.Calls
/-
The entry points of the virtual machine as sequences of steps.
-/
namespace Arwen
variable {χ A : Type} {E : Env χ A} {ex : Executor χ A}

/-- A host between transactions: no instance is current or kept (unless the warm-instance feature keeps one), none is on the
stack. -/
structure AtRest (E : Env χ A) (s : St χ A) : Prop where
  inst : s.rt.instance_ = none ∨ E.useWarm = true
  stack : s.rt.instanceStack = []
  warm : s.rt.warmInstance = none ∨ E.useWarm = true

/-- the state in which the code of a top-level call or upgrade starts -/
def enterCallState (i : CallInput) (s : St χ A) : St χ A := (enterCall i s).2
/-- the input it sees -/
def enterCallInput (i : CallInput) (s : St χ A) : VMInput :=
  match (enterCall i s).1 with
  | .ok v => v
  | _ => i.vm
theorem enterCall_run (i : CallInput) (s : St χ A) : enterCall i s = (.ok (enterCallInput i s), enterCallState i s) := rfl

/-- the state in which the code of a top-level deployment starts, at address `a` -/
def enterCreateState (i : CreateInput) (a : Addr) (s : St χ A) : St χ A :=
  let s : St χ A := { s with rt := { s.rt with cur := { s.rt.cur with vmInput := i.vm, scAddress := a } } }
  let s := (meterInit i.vm s).2
  { s with out := s.out.addTxValue a i.vm.callValue, sto := s.sto.setAddress a }

/-- the part of a top-level call after the contexts are initialized -/
def callRest (E : Env χ A) (ex : Executor χ A) (gas : UInt64) : M χ A VMOutput := do
  let s ← M.get
  match checkGetCodeGas s gas with
  | some _ => M.lift (outputOnError E .notEnoughGas)
  | none => do
    match (← M.lift (getSCCode E)) with
    | .error _ => M.lift (outputOnError E .contractNotFound)
    | .ok code => do
      match (← deductForExecution code) with
      | some _ => M.lift (outputOnError E .notEnoughGas)
      | none => do
        let s ← M.get
        match (← startInstance E code s.met.cur.gasForExecution false) with
        | some _ => M.lift (outputOnError E .contractInvalid)
        | none => do
          match (← callMethod E ex) with
          | some e => M.lift (outputOnError E e)
          | none => do
            let out ← M.lift (getVMOutput E)
            M.modify St.cleanInstance
            pure out

/-- the part of a top-level upgrade after the contexts are initialized -/
def upgradeRest (E : Env χ A) (ex : Executor χ A) (i : CallInput) : M χ A VMOutput := do
  match (← extractUpgrade) with
  | none => M.lift (outputOnError E .invalidUpgradeArguments)
  | some (code, metadata) => do
    let r ← performDeployment E ex { code := code, metadata := metadata, address := i.recipient, deployer := i.vm.caller }
    outputOf E r

/-- the part of a top-level deployment after the contexts are initialized -/
def createRest (E : Env χ A) (ex : Executor χ A) (i : CreateInput) (addr : Addr) : M χ A VMOutput := do
  let r ← performDeployment E ex { code := i.code, metadata := i.metadata, address := addr, deployer := i.vm.caller }
  outputOf E r

theorem callBody_run (i : CallInput) (s : St χ A) :
    callBody E ex i s = callRest E ex (enterCallInput i s).gasProvided (enterCallState i s) := rfl
theorem upgradeBody_run (i : CallInput) (s : St χ A) : upgradeBody E ex i s = upgradeRest E ex i (enterCallState i s) := rfl
theorem createBody_run (i : CreateInput) (s : St χ A) : createBody E ex i s =
    match (newAddress E i.vm.caller s).1 with
    | .error e => (.ok (outputOnError E e (newAddress E i.vm.caller s).2).1, (outputOnError E e (newAddress E i.vm.caller s).2).2)
    | .ok a => createRest E ex i a (enterCreateState i a (newAddress E i.vm.caller s).2) := by
  unfold createBody
  rw [lift_bind]
  cases (newAddress E i.vm.caller s).1 <;> rfl

section
local notation "Sim" => SimAt ex (StepB E ex)

theorem sim_lift_outputOnError (e : Err) (s : St χ A) : Sim (M.lift (outputOnError E e)) s :=
  SimAt.up (sim_lift (run_outputOnError s e))

theorem sim_outputOf (r : Except Err VMOutput) (s : St χ A) : Sim (outputOf E r) s := by
  unfold outputOf
  cases r with
  | ok o => exact sim_pure _
  | error e => exact sim_lift_outputOnError e s

theorem getVMOutput_stack (s : St χ A) : (getVMOutput E s).2.rt = s.rt := by
  obtain ⟨o, m, h⟩ := getVMOutput_only (E := E) s
  rw [h]

theorem sim_performDeployment (hF : FrameEx ex) (d : CodeDeployInput) (s : St χ A) (hfr : Fresh E s) (hst : s.rt.instanceStack = []) :
    SimAt ex (StepT E ex) (performDeployment E ex d) s := by
  unfold performDeployment
  refine sim_bind (sim_deployTop hF.keeps d s hfr) (fun r t _ hr => ?_)
  cases r with
  | some e => exact sim_pure _
  | none =>
    have h0 : t.rt.instanceStack = [] := (hr.frameT hF).1.insts.trans hst
    exact sim_lift_bind (.step (.b _ _ (.finalize t)))
      (sim_modify_bind (.step (.b _ _ (.clean _ (by rw [getVMOutput_stack]; exact h0)))) (sim_pure _))

theorem sim_createRest (hF : FrameEx ex) (i : CreateInput) (a : Addr) (s : St χ A) (hfr : Fresh E s) (hst : s.rt.instanceStack = []) :
    SimAt ex (StepT E ex) (createRest E ex i a) s :=
  sim_bind (sim_performDeployment hF _ s hfr hst) (fun r t _ _ => (sim_outputOf r t).toT)

theorem sim_upgradeRest (hF : FrameEx ex) (i : CallInput) (s : St χ A) (hfr : Fresh E s) (hst : s.rt.instanceStack = []) :
    SimAt ex (StepT E ex) (upgradeRest E ex i) s := by
  unfold upgradeRest
  refine sim_bind (sim_extractUpgrade s).toT (fun r t he _ => ?_)
  have hfr : Fresh E t := by
    refine hfr.of_eq ?_ ?_ <;>
    · simp only [extractUpgrade] at he
      split at he <;> · simp only [Prod.mk.injEq] at he; rw [← he.2]
  cases r with
  | none => exact (sim_lift_outputOnError _ t).toT
  | some p =>
    have h0 : t.rt.instanceStack = [] := by
      simp only [extractUpgrade] at he
      split at he <;> · simp only [Prod.mk.injEq] at he; rw [← he.2]; exact hst
    exact sim_bind (sim_performDeployment hF _ t hfr h0) (fun r t _ _ => (sim_outputOf r t).toT)

theorem sim_callRest (hF : FrameEx ex) (g : UInt64) (s : St χ A) (hfr : Fresh E s) (hst : s.rt.instanceStack = []) :
    Sim (callRest E ex g) s := by
  unfold callRest
  refine sim_get ?_
  split
  · exact sim_lift_outputOnError _ s
  · refine sim_bind (sim_getSCCode s) (fun r u hgc hr1 => ?_)
    have hst : u.rt.instanceStack = [] := (hr1.frame hF).1.insts.trans hst
    have he := hgc
    have hfr : Fresh E u := by
      simp only [M.lift, Prod.mk.injEq] at he
      rw [← he.2]
      exact hfr.of_eq (by rw [getSCCode_rt]) (by rw [getSCCode_rt])
    cases r with
    | error e => exact sim_lift_outputOnError _ u
    | ok code =>
      refine sim_bind (sim_deductForExecution _ u) (fun r v he hr2 => ?_)
      have hst : v.rt.instanceStack = [] := (hr2.frame hF).1.insts.trans hst
      have hfr := hfr.exec he
      cases r with
      | some e => exact sim_lift_outputOnError _ v
      | none =>
        refine sim_get (sim_bind (sim_startInstance _ _ _ v hfr (.inr (loaded_code hgc he))) (fun r w _ hr3 => ?_))
        have hst : w.rt.instanceStack = [] := (hr3.frame hF).1.insts.trans hst
        cases r with
        | some e => exact sim_lift_outputOnError _ w
        | none =>
          refine sim_bind (sim_callMethod hF.keeps w) (fun r x _ hr4 => ?_)
          have hst : x.rt.instanceStack = [] := (hr4.frame hF).1.insts.trans hst
          cases r with
          | some e => exact sim_lift_outputOnError _ x
          | none =>
            exact sim_lift_bind (.step (.finalize x))
              (sim_modify_bind (.step (.clean _ (by rw [getVMOutput_stack]; exact hst))) (sim_pure _))
end

/-- the body of an entry point, after `InitState` -/
def txBody (E : Env χ A) (ex : Executor χ A) : Tx → M χ A VMOutput
  | .create i => createBody E ex i
  | .call i => if i.function = upgradeName then upgradeBody E ex i else callBody E ex i

/-- Running a transaction: the state initialized, the body, the clean-up (also after a panic). -/
inductive TxRun (E : Env χ A) (n : Nat) (tx : Tx) (s : St χ A) : RunResult → St χ A → Prop
  | ok (o : VMOutput) (t : St χ A) : txBody E (execN E n) tx (hostInit E s) = (.ok o, t) →
      TxRun E n tx s (some (some o)) (hostClean t)
  | reset (o : VMOutput) (t : St χ A) : txBody E (execN E n) tx (hostInit E s) = (.ok o, t) →
      (hostClean t).isWarm = true → TxRun E n tx s (some (some o)) (hostClean t).resetWarm
  | panic (t : St χ A) : txBody E (execN E n) tx (hostInit E s) = (.panic, t) →
      TxRun E n tx s (some none) (hostClean t)
  | oof (t : St χ A) : txBody E (execN E n) tx (hostInit E s) = (.oof, t) → TxRun E n tx s none t

theorem withHost_run {α : Type} (m : M χ A α) (s : St χ A) : withHost E m s =
    match m (hostInit E s) with
    | (.ok a, t) => (.ok a, hostClean t)
    | (.panic, t) => (.panic, hostClean t)
    | (.oof, t) => (.oof, t) := by
  unfold withHost
  rw [modify_bind]
  unfold M.deferred
  generalize m (hostInit E s) = q
  obtain ⟨r, t⟩ := q
  cases r <;> rfl

theorem runTx_any (n : Nat) (tx : Tx) (s : St χ A) : TxRun E n tx s (runTx E n tx s).1 (runTx E n tx s).2 := by
  cases tx with
  | create i =>
    simp only [runTx, runCreate, withHost_run]
    generalize hq : createBody E (execN E n) i (hostInit E s) = q
    obtain ⟨r, t⟩ := q
    cases r with
    | ok o => exact .ok o t hq
    | panic => exact .panic t hq
    | oof => exact .oof t hq
  | call i =>
    simp only [runTx, runCall]
    split
    · rename_i hu
      simp only [withHost_run]
      generalize hq : upgradeBody E (execN E n) i (hostInit E s) = q
      have hq' : txBody E (execN E n) (.call i) (hostInit E s) = q := by rw [← hq]; simp only [txBody, if_pos hu]
      obtain ⟨r, t⟩ := q
      cases r with
      | ok o => exact .ok o t hq'
      | panic => exact .panic t hq'
      | oof => exact .oof t hq'
    · rename_i hu
      simp only [withHost_run]
      generalize hq : callBody E (execN E n) i (hostInit E s) = q
      have hq' : txBody E (execN E n) (.call i) (hostInit E s) = q := by rw [← hq]; simp only [txBody, if_neg hu]
      obtain ⟨r, t⟩ := q
      cases r with
      | ok o =>
        dsimp only
        split
        · rename_i hw
          simp only [Bool.and_eq_true] at hw
          exact .reset o t hq' hw.1
        · exact .ok o t hq'
      | panic => exact .panic t hq'
      | oof => exact .oof t hq'

/-- The state in which the steps of a transaction start: contexts initialized, call or deployment entered. -/
def txStart (E : Env χ A) (tx : Tx) (s : St χ A) : St χ A :=
  match tx with
  | .call i => enterCallState i (hostInit E s)
  | .create i =>
    match (newAddress E i.vm.caller (hostInit E s)).1 with
    | .error _ => hostInit E s
    | .ok a => enterCreateState i a (newAddress E i.vm.caller (hostInit E s)).2

theorem newAddress_rt (a : Addr) (s : St χ A) : (newAddress E a s).2.rt = s.rt := by
  have : (getNonce E a s).2.rt = s.rt := by
    unfold getNonce
    dsimp only
    repeat' split
    all_goals rfl
  unfold newAddress
  dsimp only
  split <;> exact this

theorem fresh_txStart (tx : Tx) {s : St χ A} (h : AtRest E s) : Fresh E (txStart E tx s) := by
  have key : ∀ t : St χ A, t.rt.instance_ = s.rt.instance_ → t.rt.instanceStack = s.rt.instanceStack → Fresh E t := by
    intro t h1 _
    rcases h.inst with h | h
    · exact .inl (h1.trans h)
    · exact .inr (.inr h)
  cases tx with
  | call i => exact key _ rfl rfl
  | create i =>
    unfold txStart
    dsimp only
    split
    · exact key _ rfl rfl
    · refine key _ ?_ ?_
      · show ((newAddress E i.vm.caller (hostInit E s)).2).rt.instance_ = _; rw [newAddress_rt]; rfl
      · show ((newAddress E i.vm.caller (hostInit E s)).2).rt.instanceStack = _; rw [newAddress_rt]; rfl

theorem txStart_rt (tx : Tx) (s : St χ A) : (txStart E tx s).rt.instanceStack = s.rt.instanceStack ∧
    (txStart E tx s).rt.instance_ = s.rt.instance_ ∧ (txStart E tx s).rt.warmInstance = s.rt.warmInstance := by
  cases tx with
  | call i => exact ⟨rfl, rfl, rfl⟩
  | create i =>
    unfold txStart
    dsimp only
    split
    · exact ⟨rfl, rfl, rfl⟩
    · have := newAddress_rt (E := E) i.vm.caller (hostInit E s)
      refine ⟨?_, ?_, ?_⟩
      · show ((newAddress E i.vm.caller (hostInit E s)).2).rt.instanceStack = _; rw [this]; rfl
      · show ((newAddress E i.vm.caller (hostInit E s)).2).rt.instance_ = _; rw [this]; rfl
      · show ((newAddress E i.vm.caller (hostInit E s)).2).rt.warmInstance = _; rw [this]; rfl

/-- the body of a transaction, from the state where its steps start -/
theorem sim_txBody (hk : FrameEx ex) (tx : Tx) {s : St χ A} (h : AtRest E s) : ∃ m : M χ A VMOutput,
    txBody E ex tx (hostInit E s) = m (txStart E tx s) ∧ SimAt ex (StepT E ex) m (txStart E tx s) := by
  have hf := fresh_txStart tx h
  have h0 : (txStart E tx s).rt.instanceStack = [] := (txStart_rt tx s).1.trans h.stack
  cases tx with
  | call i =>
    by_cases hu : i.function = upgradeName
    · exact ⟨upgradeRest E ex i, by simp only [txBody, if_pos hu, upgradeBody_run]; rfl, sim_upgradeRest hk i _ hf h0⟩
    · exact ⟨callRest E ex _, by simp only [txBody, if_neg hu, callBody_run]; rfl, (sim_callRest hk _ _ hf h0).toT⟩
  | create i =>
    simp only [txBody, createBody_run]
    cases hn : (newAddress E i.vm.caller (hostInit E s)).1 with
    | ok a =>
      have e1 : txStart E (.create i) s = enterCreateState i a (newAddress E i.vm.caller (hostInit E s)).2 := by
        simp only [txStart, hn]
      rw [e1] at hf h0 ⊢
      exact ⟨createRest E ex i a, rfl, sim_createRest hk i a _ hf h0⟩
    | error e =>
      have e1 : txStart E (.create i) s = hostInit E s := by simp only [txStart, hn]
      rw [e1]
      exact ⟨M.lift (newAddress E i.vm.caller) >>= fun _ => M.lift (outputOnError E e), rfl,
        (sim_bind (SimAt.up (sim_lift (run_newAddress _ _))) (fun _ t _ _ => sim_lift_outputOnError e t)).toT⟩

end Arwen
