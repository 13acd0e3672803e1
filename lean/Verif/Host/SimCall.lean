import Verif.Host.Sim
/-
Asynchronous calls, starting of instances, and whole calls as sequences of steps.
-/
namespace Arwen
variable {χ A : Type} {E : Env χ A} {ex : Executor χ A}

section
local notation "Sim" => SimAt ex (StepA E ex)

theorem sim_canExecSync (d : Addr) (s : St χ A) : Sim (canExecSync E d) s := by
  unfold canExecSync
  refine sim_bind (sim_lift (run_getCode s d)) (fun r t _ _ => ?_)
  cases r <;> exact sim_pure _

theorem sim_asyncMode (info : AsyncCallInfo) (s : St χ A) : Sim (asyncMode E info) s := by
  unfold asyncMode
  split
  · exact sim_pure _
  · refine sim_get ?_
    refine sim_ite (fun _ => ?_) (fun _ => ?_)
    · refine sim_ite (fun _ => sim_ite (fun _ => sim_pure _) (fun _ => sim_pure _)) (fun _ => sim_pure _)
    · exact sim_bind (sim_canExecSync _ s) (fun _ _ _ _ => sim_ite (fun _ => sim_pure _) (fun _ => sim_pure _))

theorem sim_sendAsync (v : AsyncView) (s : St χ A) : Sim (sendAsync E v) s := by
  unfold sendAsync
  refine sim_get (sim_bind (sim_lift (run_transfer s _ _ _ _ _ _ _)) (fun r t _ _ => ?_))
  cases r with
  | some e => exact sim_bind (sim_withFault e t) (fun _ _ _ _ => sim_pure _)
  | none => exact sim_get (sim_bind (sim_useGas _ t) (fun _ _ _ _ => sim_pure _))

theorem sim_sendCallbackToCaller (s : St χ A) : Sim (sendCallbackToCaller E) s := by
  unfold sendCallbackToCaller
  refine sim_get (sim_bind (sim_lift (run_transfer s _ _ _ _ _ _ _)) (fun r t _ _ => ?_))
  cases r with
  | some e => exact sim_bind (sim_withFault e t) (fun _ _ _ _ => sim_pure _)
  | none => exact sim_get (sim_bind (sim_useGas _ t) (fun _ _ _ _ => sim_pure _))

theorem sim_sendStorageCallback (c : Addr) (d : Bytes) (s : St χ A) : Sim (sendStorageCallback E c d) s := by
  unfold sendStorageCallback
  refine sim_get (sim_bind (sim_lift (run_transfer s _ _ _ _ _ _ _)) (fun r t _ _ => ?_))
  cases r with
  | some e => exact sim_bind (sim_withFault e t) (fun _ _ _ _ => sim_pure _)
  | none => exact sim_pure _

theorem sim_processCallbackOutput (out : Option VMOutput) (err : Option Err) (s : St χ A) :
    Sim (processCallbackOutput E out err) s := by
  unfold processCallbackOutput
  cases err with
  | none => exact sim_pure _
  | some e =>
    refine sim_modify_bind (.step (.rt s _ .noGas)) ?_
    have fin : ∀ (o : VMOutput) (u : St χ A), Sim (M.modify (fun s => { s with out :=
      ((s.out.setReturnMessage o.returnMessage).finish (E.retCodeText o.returnCode)).finish s.rt.cur.vmInput.currentTxHash })) u :=
      fun o u => sim_modify (((step_out (.msg o.returnMessage)).trans
        (step_out (s := { u with out := u.out.setReturnMessage o.returnMessage }) (.finish (E.retCodeText o.returnCode)))).trans
        (step_out (s := { u with out := (u.out.setReturnMessage o.returnMessage).finish (E.retCodeText o.returnCode) })
          (.finish u.rt.cur.vmInput.currentTxHash)))
    cases out with
    | some o => exact fin o _
    | none => exact sim_bind (sim_lift (run_outputOnError _ e)) (fun o t _ _ => fin o t)

theorem sim_execSyncDest (hk : KeepsInst ex) (v : AsyncView) (s : St χ A) : Sim (execSyncDest ex v) s := by
  unfold execSyncDest
  refine sim_get ?_
  split
  · exact sim_pure _
  · exact sim_bind (sim_dest hk _ s) (fun _ _ _ _ => sim_pure _)

theorem sim_execSyncCallback (hk : KeepsInst ex) (v : AsyncView) (o : Option VMOutput) (e : Option Err) (s : St χ A) :
    Sim (execSyncCallback ex v o e) s := by
  unfold execSyncCallback
  split
  · exact sim_panic
  · refine sim_get ?_
    split
    · exact sim_pure _
    · exact sim_bind (sim_restoreGas _ s) (fun _ t _ _ => sim_bind (sim_dest hk _ t) (fun _ _ _ _ => sim_pure _))

theorem sim_handleAsyncBreakpoint (hk : KeepsInst ex) (s : St χ A) : Sim (handleAsyncBreakpoint E ex) s := by
  unfold handleAsyncBreakpoint
  refine sim_bind (sim_setBreakpoint _ s) (fun _ t _ _ => sim_get ?_)
  split
  · exact sim_panic
  · refine sim_bind (sim_asyncMode _ t) (fun r u _ _ => ?_)
    split
    · exact sim_pure _
    · exact sim_sendAsync _ u
    · exact sim_bind (sim_execSyncDest hk _ u) (fun _ _ _ _ => sim_pure _)
    · exact sim_modify_bind (step_out (.prepend _)) (sim_bind (sim_restoreGas _ _) (fun _ _ _ _ => sim_pure _))
    · exact sim_bind (sim_execSyncDest hk _ u) (fun _ v _ _ => sim_bind (sim_execSyncCallback hk _ _ _ v) (fun _ w _ _ =>
        sim_bind (sim_processCallbackOutput _ _ w) (fun _ _ _ _ => sim_pure _)))

theorem sim_handleBreakpoint (hk : KeepsInst ex) (s : St χ A) : Sim (handleBreakpoint E ex) s := by
  unfold handleBreakpoint
  refine sim_bind (sim_getBreakpoint s) (fun r t _ _ => ?_)
  split
  · exact sim_pure _
  · exact sim_handleAsyncBreakpoint hk t
  · exact sim_pure _
  · exact sim_pure _
  · exact sim_pure _

theorem sim_callFunction (hk : KeepsInst ex) (f : Prog A) (s : St χ A) : Sim (callFunction E ex f) s := by
  unfold callFunction
  refine sim_get ?_
  split
  · exact sim_panic
  · rename_i i hi
    refine sim_bind (sim_runProg hk i f s hi) (fun r t _ _ => ?_)
    cases r
    · exact sim_handleBreakpoint hk t
    · exact sim_pure _

theorem sim_callbackAsync (hk : KeepsInst ex) (c : AsyncGeneratedCall) (o : VMOutput) (e : Option Err) (s : St χ A) :
    Sim (callbackAsync E ex c o e) s := by
  unfold callbackAsync
  dsimp only
  refine sim_get ?_
  split
  · exact sim_pure _
  · exact sim_bind (sim_dest hk _ s) (fun _ t _ _ => sim_bind (sim_processCallbackOutput _ _ t) (fun _ _ _ _ => sim_pure _))

theorem sim_processAsyncCall (hk : KeepsInst ex) (c : AsyncGeneratedCall) (s : St χ A) : Sim (processAsyncCall E ex c) s := by
  unfold processAsyncCall
  refine sim_get ?_
  split
  · exact sim_panic
  · refine sim_bind (sim_dest hk _ s) (fun r t _ _ => ?_)
    split
    · exact sim_panic
    · exact sim_ite (fun _ => sim_callbackAsync hk _ _ _ t) (fun _ => sim_pure _)

theorem sim_processCalls (hk : KeepsInst ex) (l : List AsyncGeneratedCall) (s : St χ A) : Sim (processCalls E ex l) s := by
  induction l generalizing s with
  | nil => exact sim_pure _
  | cons c rest ih =>
    unfold processCalls
    refine sim_bind (sim_canExecSync _ s) (fun b t _ _ => sim_ite (fun _ => ?_) (fun _ => ?_))
    · refine sim_bind (sim_processAsyncCall hk c t) (fun r u _ _ => ?_)
      obtain ⟨c', e⟩ := r
      cases e with
      | some e => exact sim_pure _
      | none => exact sim_bind (ih u) (fun _ _ _ _ => sim_pure _)
    · exact sim_bind (ih t) (fun _ _ _ _ => sim_pure _)

theorem sim_processContexts (hk : KeepsInst ex) (l : List Bytes) (info : AsyncContextInfo) (s : St χ A) :
    Sim (processContexts E ex l info) s := by
  induction l generalizing s info with
  | nil => exact sim_pure _
  | cons id rest ih =>
    unfold processContexts
    dsimp only
    refine sim_bind (sim_processCalls hk _ s) (fun r t _ _ => ?_)
    obtain ⟨calls, e⟩ := r
    cases e with
    | some e => exact sim_pure _
    | none => exact ih _ t

theorem sim_sendPending (l : List AsyncGeneratedCall) (s : St χ A) : Sim (sendPending E l) s := by
  induction l generalizing s with
  | nil => exact sim_pure _
  | cons c rest ih =>
    unfold sendPending
    refine sim_bind (sim_canExecSync _ s) (fun b t _ _ => sim_ite (fun _ => ih t) (fun _ => ?_))
    refine sim_bind (sim_sendAsync _ t) (fun r u _ _ => ?_)
    cases r with
    | some e => exact sim_pure _
    | none => exact ih u

theorem sim_savePending (info : AsyncContextInfo) (s : St χ A) : Sim (savePending E info) s := by
  unfold savePending
  refine sim_ite (fun _ => sim_pure _) (fun _ => sim_get ?_)
  split
  · exact sim_pure _
  · exact sim_bind (sim_setProtectedStorage _ _ ⟨_, .inr rfl⟩ s) (fun _ _ _ _ => sim_pure _)

theorem sim_processAsyncInfo (hk : KeepsInst ex) (info : AsyncContextInfo) (s : St χ A) :
    Sim (processAsyncInfo E ex info) s := by
  unfold processAsyncInfo
  refine sim_ite (fun _ => sim_pure _) (fun _ => sim_get ?_)
  split
  · exact sim_pure _
  · refine sim_bind (sim_processContexts hk _ _ s) (fun r t _ _ => ?_)
    obtain ⟨info, e⟩ := r
    cases e with
    | some e => exact sim_pure _
    | none =>
      dsimp only
      refine sim_ite (fun _ => sim_pure _) (fun _ => ?_)
      refine sim_bind (sim_savePending _ t) (fun r u _ _ => ?_)
      cases r with
      | some e => exact sim_pure _
      | none =>
        refine sim_get ?_
        split
        · exact sim_pure _
        · refine sim_bind (sim_sendPending _ u) (fun r v _ _ => ?_)
          cases r <;> exact sim_pure _

theorem sim_currentAsyncInfo (s : St χ A) : Sim (currentAsyncInfo E) s := by
  unfold currentAsyncInfo
  refine sim_get (sim_bind (sim_getStorageUnmetered _ s) (fun _ _ _ _ => sim_ite (fun _ => sim_pure _) (fun _ => sim_pure _)))

theorem sim_getFunctionToCall (s : St χ A) : Sim getFunctionToCall s := by
  unfold getFunctionToCall
  refine sim_bind (sim_curInst s) (fun i t _ _ => sim_get ?_)
  split
  · exact sim_pure _
  · exact sim_ite (fun _ => sim_pure _) (fun _ => sim_pure _)

theorem sim_getInitFunction (s : St χ A) : Sim getInitFunction s :=
  sim_bind (sim_curInst s) (fun _ _ _ _ => sim_pure _)

theorem sim_callInit (hk : KeepsInst ex) (s : St χ A) : Sim (callInit E ex) s := by
  unfold callInit
  refine sim_bind (sim_getInitFunction s) (fun r t _ _ => ?_)
  cases r with
  | none => exact sim_pure _
  | some f =>
    refine sim_bind (sim_callFunction hk f t) (fun r u _ _ => ?_)
    cases r with
    | some e => exact sim_pure _
    | none => exact sim_gets _

theorem sim_callIndirect (hk : KeepsInst ex) (s : St χ A) : Sim (callIndirect E ex) s := by
  unfold callIndirect
  refine sim_bind (sim_getFunctionToCall s) (fun r t _ _ => ?_)
  cases r with
  | error e => exact sim_ite (fun _ => sim_pure _) (fun _ => sim_pure _)
  | ok f => exact sim_callFunction hk f t

end

/-! ### Steps of a whole call -/

/-- an instance can be started: the instance that is current, if any, is kept on the stack (or by the warm-instance feature) -/
def Fresh (E : Env χ A) (s : St χ A) : Prop :=
  s.rt.instance_ = none ∨ s.rt.instance_ ∈ s.rt.instanceStack ∨ E.useWarm = true

theorem Fresh.of_eq {s t : St χ A} (h : Fresh E s) (h1 : t.rt.instance_ = s.rt.instance_)
    (h2 : t.rt.instanceStack = s.rt.instanceStack) : Fresh E t := by unfold Fresh; rw [h1, h2]; exact h

/-- a method without nested calls keeps the current instance and the stack of instances -/
theorem keeps_of_idle {α : Type} {m : M χ A α} {s t : St χ A} {a : α}
    (h : SimAt (Executor.idle : Executor χ A) (StepA E Executor.idle) m s) (he : m s = (.ok a, t)) :
    t.rt.instance_ = s.rt.instance_ ∧ t.rt.instanceStack = s.rt.instanceStack :=
  (h.ok he).rel (R := fun s t => t.rt.instance_ = s.rt.instance_ ∧ t.rt.instanceStack = s.rt.instanceStack)
    (fun _ => ⟨rfl, rfl⟩) (fun _ _ _ h1 h2 => ⟨h2.1.trans h1.1, h2.2.trans h1.2⟩) (fun s t h => by
      refine ⟨h.inst_eq, ?_⟩
      cases h with
      | dest _ i r h _ => simp only [Executor.idle, Prod.mk.injEq] at h; rw [← h.2]
      | same _ i r h _ => simp only [Executor.idle, Prod.mk.injEq] at h; rw [← h.2]
      | undo _ i r a ci h => simp only [Executor.idle, Prod.mk.injEq] at h; rw [← h.2]
      | _ => rfl)
theorem Fresh.keep {α : Type} {m : M χ A α} {s t : St χ A} {a : α} (hf : Fresh E s)
    (h : SimAt (Executor.idle : Executor χ A) (StepA E Executor.idle) m s) (he : m s = (.ok a, t)) : Fresh E t :=
  hf.of_eq (keeps_of_idle h he).1 (keeps_of_idle h he).2

/-- the code the node stores at an address -/
def chainCode (E : Env χ A) (s : St χ A) (a : Addr) : Bytes :=
  match acctOf E s a with
  | some ua => ua.code
  | none => []
/-- the code of an address as contracts see it: that in the output, if there is any -/
def codeAt (E : Env χ A) (s : St χ A) (a : Addr) : Bytes :=
  match s.out.cur.accounts.get? a with
  | some acc => if acc.code.length > 0 then acc.code else chainCode E s a
  | none => chainCode E s a

/-- Where the module of a new instance comes from: code being deployed, the code of the contract, or compiled code kept by the
node under the hash of the contract. -/
inductive FromCode (E : Env χ A) (c : Bytes) (new : Bool) (s : St χ A) (m : WasmModule A) : Prop
  | code : E.wasm.compile c = .ok m → (new = true ∨ codeAt E s s.rt.cur.scAddress = c) → FromCode E c new s m
  | kept (cc : Bytes) : new = false → getCodeHash E s s.rt.cur.scAddress ≠ [] →
      E.hook.compiledCode s.world (getCodeHash E s s.rt.cur.scAddress) = some cc → E.wasm.fromCompiled cc = .ok m → FromCode E c new s m

/-- The hash under which compiled code is saved: that of the code, or that of the contract whose code it is. -/
def SavedUnder (E : Env χ A) (c : Bytes) (new : Bool) (s : St χ A) (h : Bytes) : Prop :=
  E.crypto.sha256 c = .ok h ∨
  (new = false ∧ codeAt E s s.rt.cur.scAddress = c ∧ h ≠ [] ∧ h = getCodeHash E s s.rt.cur.scAddress)

/-- Steps of a call: those of contracts, and starting an instance, entering upgraded code in the output and so on. -/
inductive StepB (E : Env χ A) (ex : Executor χ A) : St χ A → St χ A → Prop
  | a (s t : St χ A) : StepA E ex s t → StepB E ex s t
  /-- the initial cost of a call -/
  | deduct (s : St χ A) (cost : UInt64) : cost ≤ s.rt.cur.vmInput.gasProvided →
      StepB E ex s { s with met := { s.met with cur := { s.met.cur with
        initialCost := cost, gasForExecution := s.rt.cur.vmInput.gasProvided - cost } } }
  | codeSize (s : St χ A) (n : UInt64) : StepB E ex s { s with rt := { s.rt with codeSize := n } }
  | instNone (s : St χ A) : Fresh E s → StepB E ex s { s with rt := { s.rt with instance_ := none } }
  | newInst (s : St χ A) (c : Bytes) (new : Bool) (m : WasmModule A) (g : UInt64) :
      s.rt.instanceStack.length < E.maxInstances → Fresh E s → FromCode E c new s m → StepB E ex s (newInstance m g new s)
  | warmStart (s : St χ A) (i : Nat) (g : UInt64) : E.useWarm = true → s.rt.warmAddress = some s.rt.cur.scAddress →
      s.rt.warmInstance = some i → s.rt.instanceStack.length < E.maxInstances →
      StepB E ex s { s.modInst i (fun x => { x with points := 0, limit := g, bp := .none }) with
        rt := { s.rt with instance_ := some i } }
  | setWarm (s : St χ A) : E.useWarm = true →
      StepB E ex s { s with rt := { s.rt with warmAddress := some s.rt.cur.scAddress, warmInstance := s.rt.instance_ } }
  /-- an instance that is destroyed at once -/
  | failed (s : St χ A) (c : Bytes) (new : Bool) (m : WasmModule A) (g : UInt64) :
      s.rt.instanceStack.length < E.maxInstances → Fresh E s → FromCode E c new s m → StepB E ex s (newInstance m g new s).cleanInstance
  /-- the end of a transaction -/
  | clean (s : St χ A) : s.rt.instanceStack = [] → StepB E ex s s.cleanInstance
  | saveCompiled (s : St χ A) (c : Bytes) (new : Bool) (h cc : Bytes) : E.wasm.cacheOf c = .ok cc → SavedUnder E c new s h →
      StepB E ex s { s with world := E.hook.saveCompiled s.world h cc }
  | args (s : St χ A) (l : List Bytes) :
      StepB E ex s { s with rt := { s.rt with cur := { s.rt.cur with vmInput := { s.rt.cur.vmInput with args := l } } } }
  | callFunction (s : St χ A) (f : Bytes) :
      StepB E ex s { s with rt := { s.rt with cur := { s.rt.cur with callFunction := f } } }
  | outOfGas (s : St χ A) : StepB E ex s { s with out := s.out.setReturnCode .outOfGas }
  /-- an upgrade -/
  | deploy (s : St χ A) (d : CodeDeployInput) : UpgradeAllowed E d → Vetted E d.code → StepB E ex s { s with out := s.out.deployCode d }
  | finalize (s : St χ A) : StepB E ex s (getVMOutput E s).2

section
local notation "Sim" => SimAt ex (StepB E ex)

theorem SimAt.up {ex' : Executor χ A} {α : Type} {m : M χ A α} {s : St χ A} (h : SimAt ex' (StepA E ex) m s) :
    SimAt ex' (StepB E ex) m s := h.mono (fun _ _ => .a _ _)

theorem sim_deductForExecution (c : Bytes) (s : St χ A) : Sim (deductForExecution c) s := by
  unfold deductForExecution
  refine sim_get ?_
  split
  · exact run_deductInitialGas _ _ _ s fun cost h => .deduct s cost h
  · exact run_deductInitialGas _ _ _ s fun cost h => .deduct s cost h
theorem sim_deductForDirectDeployment (c : Bytes) (s : St χ A) : Sim (deductForDirectDeployment c) s :=
  sim_get (run_deductInitialGas _ _ _ s fun cost h => .deduct s cost h)

theorem deductInitialGas_rt (n : Nat) (b c : UInt64) (s : St χ A) : (deductInitialGas n b c s).2.rt = s.rt := by
  unfold deductInitialGas
  dsimp only
  split <;> rfl
theorem deductForExecution_rt (c : Bytes) (s : St χ A) : (deductForExecution c s).2.rt = s.rt := by
  show ((if s.flags.aot then deductInitialGas c.length s.met.sched.getCode s.met.sched.aotPreparePerByte
    else deductInitialGas c.length 0 s.met.sched.compilePerByte) s).2.rt = s.rt
  split <;> exact deductInitialGas_rt _ _ _ s
theorem deductForDirect_rt (c : Bytes) (s : St χ A) : (deductForDirectDeployment c s).2.rt = s.rt := by
  exact deductInitialGas_rt _ _ _ s
theorem Fresh.exec {c : Bytes} {s t : St χ A} {r : Res (Option Err)} (hf : Fresh E s) (he : deductForExecution c s = (r, t)) : Fresh E t := by
  have h := deductForExecution_rt c s
  rw [he] at h
  exact hf.of_eq (by rw [h]) (by rw [h])
theorem Fresh.direct {c : Bytes} {s t : St χ A} {r : Res (Option Err)} (hf : Fresh E s) (he : deductForDirectDeployment c s = (r, t)) : Fresh E t := by
  have h := deductForDirect_rt c s
  rw [he] at h
  exact hf.of_eq (by rw [h]) (by rw [h])

/-- Steps of starting an instance. -/
inductive StepI (E : Env χ A) : St χ A → St χ A → Prop
  | instNone (s : St χ A) : Fresh E s → StepI E s { s with rt := { s.rt with instance_ := none } }
  | newInst (s : St χ A) (c : Bytes) (new : Bool) (m : WasmModule A) (g : UInt64) :
      s.rt.instanceStack.length < E.maxInstances → Fresh E s → FromCode E c new s m → StepI E s (newInstance m g new s)
  | warmStart (s : St χ A) (i : Nat) (g : UInt64) : E.useWarm = true → s.rt.warmAddress = some s.rt.cur.scAddress →
      s.rt.warmInstance = some i → s.rt.instanceStack.length < E.maxInstances →
      StepI E s { s.modInst i (fun x => { x with points := 0, limit := g, bp := .none }) with
        rt := { s.rt with instance_ := some i } }
  | setWarm (s : St χ A) : E.useWarm = true →
      StepI E s { s with rt := { s.rt with warmAddress := some s.rt.cur.scAddress, warmInstance := s.rt.instance_ } }
  | failed (s : St χ A) (c : Bytes) (new : Bool) (m : WasmModule A) (g : UInt64) :
      s.rt.instanceStack.length < E.maxInstances → Fresh E s → FromCode E c new s m → StepI E s (newInstance m g new s).cleanInstance
  | saveCompiled (s : St χ A) (c : Bytes) (new : Bool) (h cc : Bytes) : E.wasm.cacheOf c = .ok cc → SavedUnder E c new s h →
      StepI E s { s with world := E.hook.saveCompiled s.world h cc }
  | verify (s : St χ A) (b : Bool) : StepI E s { s with rt := { s.rt with verifyCode := b } }

theorem StepI.toB {s t : St χ A} (h : StepI E s t) : StepB E ex s t := by
  cases h with
  | instNone h => exact .instNone s h
  | newInst c new m g h1 h2 h3 => exact .newInst s c new m g h1 h2 h3
  | warmStart i g h1 h2 h3 h4 => exact .warmStart s i g h1 h2 h3 h4
  | setWarm h => exact .setWarm s h
  | failed c new m g h1 h2 h3 => exact .failed s c new m g h1 h2 h3
  | saveCompiled c new h cc h1 h2 => exact .saveCompiled s c new h cc h1 h2
  | verify b => exact .a _ _ (.verify s b)

section
local notation "SimI" => SimAt ex (StepI E)

theorem sim_verifyContractCode (s : St χ A) : SimI (verifyContractCode E) s := by
  unfold verifyContractCode
  refine sim_get (sim_ite (fun _ => sim_pure _) (fun _ => sim_modify_bind (.step (.verify s false)) ?_))
  split
  · exact sim_panic
  · exact sim_pure _

/-- the parts of the state that destroying the current instance leaves alone come out the same before and after it -/
theorem cleanInstance_verify (b : Bool) (s : St χ A) : St.cleanInstance { s with rt := { s.rt with verifyCode := b } } =
    { s.cleanInstance with rt := { s.cleanInstance.rt with verifyCode := b } } := by
  unfold St.cleanInstance
  dsimp only
  split
  · rfl
  · rename_i i hi
    have e : St.isWarm { s with rt := { s.rt with verifyCode := b } } = s.isWarm := rfl
    rw [e]
    split <;> rfl
theorem cleanInstance_world (w : χ) (s : St χ A) : St.cleanInstance { s with world := w } = { s.cleanInstance with world := w } := by
  unfold St.cleanInstance
  dsimp only
  split
  · rfl
  · have e : St.isWarm { s with world := w } = s.isWarm := rfl
    rw [e]
    split <;> rfl
theorem cleanInstance_same (s : St χ A) : s.cleanInstance.world = s.world ∧ s.cleanInstance.out = s.out ∧
    s.cleanInstance.rt.cur = s.rt.cur := by
  unfold St.cleanInstance
  split
  · exact ⟨rfl, rfl, rfl⟩
  · split <;> exact ⟨rfl, rfl, rfl⟩

theorem SavedUnder.of_eq {c : Bytes} {new : Bool} {s t : St χ A} {h : Bytes} (hs : SavedUnder E c new s h)
    (h1 : t.world = s.world) (h2 : t.out = s.out) (h3 : t.rt.cur = s.rt.cur) : SavedUnder E c new t h := by
  unfold SavedUnder codeAt chainCode getCodeHash acctOf at *
  rw [h1, h2, h3]
  exact hs

theorem sim_fromByteCode (code : Bytes) (g : UInt64) (new : Bool) (s : St χ A)
    (hn : s.rt.instanceStack.length < E.maxInstances) (hfr : Fresh E s) (hl : new = true ∨ codeAt E s s.rt.cur.scAddress = code) :
    SimI (fromByteCode E code (getCodeHash E s s.rt.cur.scAddress) g new) s := by
  unfold fromByteCode
  split
  · exact sim_modify_bind (.step (.instNone s hfr)) (sim_pure _)
  · rename_i m hm
    have hstart : Run (StepI E) s (newInstance m g new s) := .step (.newInst s code new m g hn hfr (.code hm hl))
    have hfail : Run (StepI E) s (newInstance m g new s).cleanInstance := .step (.failed s code new m g hn hfr (.code hm hl))
    have fin2 : ∀ (e : Option Err) (u : St χ A), Run (StepI E) s u → Run (StepI E) s u.cleanInstance →
        ∃ t, ((match e with
          | some e => do
            M.modify St.cleanInstance
            pure (some e)
          | none => do
            if E.useWarm then
              M.modify (fun s => { s with rt := { s.rt with warmAddress := some s.rt.cur.scAddress, warmInstance := s.rt.instance_ } })
            else pure ()
            pure none : M χ A (Option Err)) u) = (.ok e, t) ∧ Run (StepI E) s t := by
      intro e u h1 h2
      cases e with
      | some e => exact ⟨_, rfl, h2⟩
      | none =>
        dsimp only
        split
        · rename_i hw
          exact ⟨_, rfl, h1.tail (.setWarm u hw)⟩
        · exact ⟨_, rfl, h1⟩
    have fin : ∀ u : St χ A, Run (StepI E) s u → Run (StepI E) s u.cleanInstance → u.rt.instance_ = some s.nextInst →
        ∃ e t, ((do
          let err ← if new then verifyContractCode E else pure none
          match err with
          | some e => do
            M.modify St.cleanInstance
            pure (some e)
          | none => do
            if E.useWarm then
              M.modify (fun s => { s with rt := { s.rt with warmAddress := some s.rt.cur.scAddress, warmInstance := s.rt.instance_ } })
            else pure ()
            pure none : M χ A (Option Err)) u) = (.ok e, t) ∧ Run (StepI E) s t := by
      intro u h1 h2 hi
      by_cases hb : new = true
      · rw [if_pos hb]
        by_cases hv : u.rt.verifyCode = true
        · have e : verifyContractCode E u = (.ok (verifyModule E u.flags.esdt (u.insts s.nextInst).mod),
              { u with rt := { u.rt with verifyCode := false } }) := by
            unfold verifyContractCode
            have e2 : (match u.rt.instance_ with
                | none => M.panic
                | some i => pure (verifyModule E u.flags.esdt (u.insts i).mod) : M χ A (Option Err)) =
                pure (verifyModule E u.flags.esdt (u.insts s.nextInst).mod) := by rw [hi]
            have e3 : ∀ m m' : M χ A (Option Err), (if (!u.rt.verifyCode) = true then m else m') = m' := fun m m' => if_neg (by simp [hv])
            exact (congrFun (e3 _ _) u).trans (congrFun e2 { u with rt := { u.rt with verifyCode := false } })
          obtain ⟨t, h3, h4⟩ := fin2 (verifyModule E u.flags.esdt (u.insts s.nextInst).mod) { u with rt := { u.rt with verifyCode := false } }
            (h1.tail (.verify u false)) (by rw [cleanInstance_verify]; exact h2.tail (.verify _ false))
          refine ⟨verifyModule E u.flags.esdt (u.insts s.nextInst).mod, t, ?_, h4⟩
          rw [M.bind_eq]
          simp only [M.bind, e]
          exact h3
        · have e : verifyContractCode E u = (.ok none, u) := by
            unfold verifyContractCode
            simp only [M.bind_eq, M.bind, M.get, hv]
            rfl
          obtain ⟨t, h3, h4⟩ := fin2 none u h1 h2
          refine ⟨none, t, ?_, h4⟩
          rw [M.bind_eq]
          simp only [M.bind, e]
          exact h3
      · rw [if_neg hb]
        obtain ⟨t, h3, h4⟩ := fin2 none u h1 h2
        exact ⟨none, t, h3, h4⟩
    have lift : ∀ (f : Unit → M χ A (Option Err)), (∃ e t, f () (newInstance m g new s) = (.ok e, t) ∧ Run (StepI E) s t) →
        SimI (M.modify (newInstance m g new) >>= f) s := by
      intro f hf
      obtain ⟨e, t, h1, h2⟩ := hf
      exact sim_of_ok (a := e) (t := t) h1 h2
    refine lift _ ?_
    generalize hh : (if (new || decide ((getCodeHash E s s.rt.cur.scAddress).length = 0)) = true then E.crypto.sha256 code
      else Except.ok (getCodeHash E s s.rt.cur.scAddress)) = q
    cases q with
    | error e => exact ⟨_, _, rfl, hfail⟩
    | ok h =>
      cases hcc : E.wasm.cacheOf code with
      | error _ => exact fin _ hstart hfail rfl
      | ok cc =>
        have hsv : SavedUnder E code new s h := by
          split at hh
          · exact .inl hh
          · rename_i hb
            simp only [Bool.or_eq_true, decide_eq_true_eq, not_or, Bool.not_eq_true] at hb
            simp only [Except.ok.injEq] at hh
            refine .inr ⟨hb.1, ?_, ?_, hh.symm⟩
            · rcases hl with hl | hl
              · rw [hl] at hb; exact absurd hb.1 (by simp)
              · exact hl
            · rw [← hh]
              intro e
              exact hb.2 (by rw [e]; rfl)
        obtain ⟨c1, c2, c3⟩ := cleanInstance_same (newInstance m g new s)
        refine fin { newInstance m g new s with world := E.hook.saveCompiled (newInstance m g new s).world h cc }
          (hstart.tail (.saveCompiled _ code new h cc hcc (hsv.of_eq rfl rfl rfl))) ?_ rfl
        rw [cleanInstance_world]
        have := hfail.tail (.saveCompiled _ code new h cc hcc (hsv.of_eq c1 c2 c3))
        rw [c1] at this
        exact this

theorem sim_starting (code : Bytes) (g : UInt64) (new : Bool) (s : St χ A) (hfr : Fresh E s)
    (hl : new = true ∨ codeAt E s s.rt.cur.scAddress = code) : SimI (startInstance E code g new) s := by
  unfold startInstance
  refine sim_get (sim_ite (fun _ => sim_modify_bind (.step (.instNone s hfr)) (sim_pure _)) (fun hn => ?_))
  have hn : s.rt.instanceStack.length < E.maxInstances := by omega
  have hw : SimAt ex (StepI E) (setWarm E g) s := by
    unfold SimAt
    simp only [setWarm]
    by_cases hc : (E.useWarm && decide (s.rt.warmAddress = some s.rt.cur.scAddress)) = true
    · rw [if_pos hc]
      simp only [Bool.and_eq_true, decide_eq_true_eq] at hc
      have h1 : s.rt.warmInstance = none → Run (StepI E) s { s with rt := { s.rt with instance_ := none } } :=
        fun _ => .step (.instNone s hfr)
      have h2 : ∀ i, s.rt.warmInstance = some i → Run (StepI E) s
          { s.modInst i (fun x => { x with points := 0, limit := g, bp := .none }) with
            rt := { s.rt with instance_ := some i } } := fun i hi => .step (.warmStart s i g hc.1 hc.2 hi hn)
      split
      · rename_i a t h
        split at h
        · simp at h
        · rename_i i hi
          simp only [Prod.mk.injEq] at h; rw [← h.2]; exact h2 i hi
      · rename_i t h
        split at h
        · rename_i hi; simp only [Prod.mk.injEq] at h; exact ⟨_, h1 hi, .inl h.2.symm⟩
        · simp at h
      · rename_i t h
        split at h <;> simp at h
    · rw [if_neg hc]; exact .refl s
  refine sim_bind hw (fun w t ht _ => sim_ite (fun _ => sim_pure _) (fun hwt => sim_get ?_))
  have hts : t = s := by
    simp only [setWarm] at ht
    split at ht
    · split at ht
      · simp at ht
      · simp only [Prod.mk.injEq, Res.ok.injEq] at ht; exact absurd ht.1.symm hwt
    · simp only [Prod.mk.injEq] at ht; exact ht.2.symm
  subst hts
  have hf : Run (StepI E) t (fromCompiled E (getCodeHash E t t.rt.cur.scAddress) g new t).2 := by
    unfold fromCompiled
    split
    · exact .refl _
    · split
      · exact .refl _
      · rename_i hb
        simp only [Bool.or_eq_true, decide_eq_true_eq, not_or, Bool.not_eq_true] at hb
        split
        · exact .refl _
        · rename_i cc hcc
          split
          · exact .refl _
          · rename_i m hm
            exact (Run.step (.newInst t code new m g hn hfr (.kept cc hb.1 (fun e => hb.2 (by rw [e]; rfl)) hcc hm))).trans
              (.step (.verify _ false))
  refine sim_lift_bind hf (sim_ite (fun _ => sim_pure _) (fun hu => ?_))
  have : (fromCompiled E (getCodeHash E t t.rt.cur.scAddress) g new t).2 = t := by
    revert hu
    unfold fromCompiled
    split
    · exact fun _ => rfl
    · split
      · exact fun _ => rfl
      · split
        · exact fun _ => rfl
        · split
          · exact fun _ => rfl
          · intro h; exact absurd rfl h
  rw [this]; exact sim_fromByteCode _ _ _ _ hn hfr hl

end

theorem sim_startInstance (code : Bytes) (g : UInt64) (new : Bool) (s : St χ A) (hfr : Fresh E s)
    (hl : new = true ∨ codeAt E s s.rt.cur.scAddress = code) : Sim (startInstance E code g new) s :=
  (sim_starting code g new s hfr hl).mono (fun _ _ => StepI.toB)

theorem sim_getSCCode (s : St χ A) : Sim (M.lift (getSCCode E)) s := by
  refine sim_lift ?_
  unfold getSCCode
  have := (run_getCode (E := E) (ex := ex) s s.rt.cur.scAddress).mono (fun _ _ => StepB.a _ _)
  generalize getCode E s.rt.cur.scAddress s = q at this ⊢
  obtain ⟨r, t⟩ := q
  cases r with
  | error e => exact this
  | ok c => exact this.trans (.step (.codeSize t _))

/-- the code returned for the current contract is the code contracts see there -/
theorem getSCCode_codeAt {s t : St χ A} {c : Bytes} (h : getSCCode E s = (.ok c, t)) : codeAt E t t.rt.cur.scAddress = c := by
  unfold getSCCode at h
  have hk : ∀ (a : Addr) (u : St χ A), getCode E a s = (.ok c, u) → codeAt E u a = c ∧ u.rt = s.rt := by
    intro a u hu
    unfold getCode OutCtx.getAcc at hu
    cases hg : s.out.cur.accounts.get? a with
    | none =>
      rw [hg] at hu
      dsimp only at hu
      rw [if_neg (by simp)] at hu
      cases hw : E.hook.userAccount s.world a with
      | error e => rw [hw] at hu; simp at hu
      | ok o =>
        rw [hw] at hu
        cases o with
        | none => simp at hu
        | some ua =>
          dsimp only at hu
          split at hu
          · simp at hu
          · rename_i hl
            simp only [Prod.mk.injEq, Except.ok.injEq] at hu
            rw [← hu.2, ← hu.1]
            refine ⟨?_, rfl⟩
            unfold codeAt OutCtx.setAcc
            dsimp only
            rw [AMap.get?_insert_self]
            dsimp only
            rw [if_pos (by omega)]
    | some acc =>
      rw [hg] at hu
      dsimp only at hu
      split at hu
      · rename_i hc
        simp only [Bool.not_false, Bool.true_and, decide_eq_true_eq] at hc
        simp only [Prod.mk.injEq, Except.ok.injEq] at hu
        rw [← hu.2, ← hu.1]
        refine ⟨?_, rfl⟩
        unfold codeAt
        rw [hg]
        dsimp only
        rw [if_pos hc]
      · cases hw : E.hook.userAccount s.world a with
        | error e => rw [hw] at hu; simp at hu
        | ok o =>
          rw [hw] at hu
          cases o with
          | none => simp at hu
          | some ua =>
            dsimp only at hu
            split at hu
            · simp at hu
            · rename_i hl
              simp only [Prod.mk.injEq, Except.ok.injEq] at hu
              rw [← hu.2, ← hu.1]
              refine ⟨?_, rfl⟩
              unfold codeAt OutCtx.setAcc
              dsimp only
              rw [AMap.get?_insert_self]
              dsimp only
              rw [if_pos (by omega)]
  generalize hq : getCode E s.rt.cur.scAddress s = q at h
  obtain ⟨r, u⟩ := q
  cases r with
  | error e => simp at h
  | ok c' =>
    simp only [Prod.mk.injEq, Except.ok.injEq] at h
    rw [h.1] at hq
    obtain ⟨h1, h2⟩ := hk _ _ hq
    rw [← h.2, ← h1, ← h2]
    rfl

theorem deductForExecution_rest (c : Bytes) (s : St χ A) :
    (deductForExecution c s).2.out = s.out ∧ (deductForExecution c s).2.world = s.world := by
  show ((if s.flags.aot then deductInitialGas c.length s.met.sched.getCode s.met.sched.aotPreparePerByte
    else deductInitialGas c.length 0 s.met.sched.compilePerByte) s).2.out = s.out ∧
    ((if s.flags.aot then deductInitialGas c.length s.met.sched.getCode s.met.sched.aotPreparePerByte
    else deductInitialGas c.length 0 s.met.sched.compilePerByte) s).2.world = s.world
  split <;>
  · unfold deductInitialGas
    dsimp only
    split <;> exact ⟨rfl, rfl⟩

/-- what is started when a contract is called is the code contracts see at its address -/
theorem loaded_code {s t u : St χ A} {c : Bytes} {r : Res (Option Err)} (h1 : M.lift (getSCCode E) s = (.ok (.ok c), t))
    (h2 : deductForExecution c t = (r, u)) : codeAt E u u.rt.cur.scAddress = c := by
  simp only [M.lift, Prod.mk.injEq, Res.ok.injEq] at h1
  have h3 : getSCCode E s = (.ok c, t) := Prod.ext h1.1 h1.2
  have h4 := getSCCode_codeAt h3
  have h5 := deductForExecution_rest c t
  have h6 := deductForExecution_rt c t
  rw [h2] at h5 h6
  unfold codeAt chainCode acctOf at h4 ⊢
  rw [h5.1, h5.2, h6]
  exact h4

theorem sim_extractUpgrade (s : St χ A) : Sim extractUpgrade s := by
  unfold SimAt
  simp only [extractUpgrade]
  cases s.rt.cur.vmInput.args with
  | nil => exact .refl s
  | cons a l =>
    cases l with
    | nil => exact .refl s
    | cons b l => exact .step (.args s l)

theorem bind_ok {α β : Type} {m : M χ A α} {f : α → M χ A β} {s t : St χ A} {r : Res β} (h : (m >>= f) s = (r, t)) :
    (∃ a u, m s = (.ok a, u) ∧ f a u = (r, t)) ∨ (m s = (.panic, t) ∧ r = .panic) ∨ (m s = (.oof, t) ∧ r = .oof) := by
  simp only [M.bind_eq, M.bind] at h
  split at h
  · rename_i a u he; exact .inl ⟨a, u, he, h⟩
  · rename_i u he; simp only [Prod.mk.injEq] at h; rw [← h.2, ← h.1]; exact .inr (.inl ⟨he, rfl⟩)
  · rename_i u he; simp only [Prod.mk.injEq] at h; rw [← h.2, ← h.1]; exact .inr (.inr ⟨he, rfl⟩)

theorem modify_bind {β : Type} {f : St χ A → St χ A} {g : Unit → M χ A β} (s : St χ A) :
    (M.modify f >>= g) s = g () (f s) := rfl
theorem lift_bind {α β : Type} {f : St χ A → α × St χ A} {g : α → M χ A β} (s : St χ A) :
    (M.lift f >>= g) s = g (f s).1 (f s).2 := rfl
theorem get_bind {β : Type} {g : St χ A → M χ A β} (s : St χ A) : (M.get >>= g) s = g s s := rfl

/-- `deploySteps` without its last step -/
def deployPrep (E : Env χ A) (ex : Executor χ A) (d : CodeDeployInput) : M χ A (Option Err) := do
  match (← deductForDirectDeployment d.code) with
  | some e => do
    M.modify (fun s => { s with out := s.out.setReturnCode .outOfGas })
    pure (some e)
  | none => do
    M.modify (fun s => { s with rt := { s.rt with verifyCode := true } })
    let s ← M.get
    match (← startInstance E d.code s.met.cur.gasForExecution true) with
    | some _ => pure (some .contractInvalid)
    | none => callInit E ex

theorem deploySteps_run (d : CodeDeployInput) (s : St χ A) : deploySteps E ex d s =
    match deployPrep E ex d s with
    | (.ok none, t) => (.ok none, { t with out := t.out.deployCode d })
    | (.ok (some e), t) => (.ok (some e), t)
    | (.panic, t) => (.panic, t)
    | (.oof, t) => (.oof, t) := by
  unfold deploySteps deployPrep
  simp only [M.bind_eq, M.bind, M.pure_eq]
  generalize deductForDirectDeployment d.code s = q
  obtain ⟨(_ | e) | _ | _, t⟩ := q
  · dsimp only [M.bind, M.modify, M.get]
    generalize startInstance E d.code _ true _ = q
    obtain ⟨(_ | e) | _ | _, t⟩ := q
    · dsimp only [M.bind]
      generalize callInit E ex t = q
      obtain ⟨(_ | e) | _ | _, t⟩ := q <;> rfl
    all_goals rfl
  all_goals rfl

theorem sim_deployPrep (hk : KeepsInst ex) (d : CodeDeployInput) (s : St χ A) (hfr : Fresh E s) : Sim (deployPrep E ex d) s := by
  unfold deployPrep
  refine sim_bind (sim_deductForDirectDeployment _ s) (fun r t he _ => ?_)
  have hfr := hfr.direct he
  cases r with
  | some e => exact sim_modify_bind (.step (.outOfGas t)) (sim_pure _)
  | none =>
    refine sim_modify_bind (.step (.a _ _ (.verify t true))) (sim_get ?_)
    refine sim_bind (sim_startInstance _ _ _ _ hfr (.inl rfl)) (fun r u _ _ => ?_)
    cases r with
    | some e => exact sim_pure _
    | none =>
      exact (sim_callInit hk u).up

theorem verify_vetted {code : Bytes} {m : WasmModule A} (hm : E.wasm.compile code = .ok m) {s t : St χ A}
    (hi : ∃ i, s.rt.instance_ = some i ∧ (s.insts i).mod = m) (hv : s.rt.verifyCode = true)
    (h : verifyContractCode E s = (.ok none, t)) : Vetted E code := by
  obtain ⟨i, hi, hm'⟩ := hi
  unfold verifyContractCode at h
  rw [get_bind, hv, if_neg (by simp), modify_bind, hi] at h
  simp only [M.pure_eq, M.pure, Prod.mk.injEq, Res.ok.injEq] at h
  rw [hm'] at h
  exact .inr ⟨m, _, hm, h.1⟩

/-- Code for which a fresh instance is started as new code was checked. -/
theorem startInstance_vetted {code : Bytes} {g : UInt64} {s t : St χ A} (hv : s.rt.verifyCode = true)
    (h : startInstance E code g true s = (.ok none, t)) : Vetted E code := by
  by_cases hw : E.useWarm = true
  · exact .inl hw
  · unfold startInstance at h
    rw [get_bind] at h
    split at h
    · rw [modify_bind] at h; simp [M.pure_eq, M.pure] at h
    · have hs : setWarm E g s = (.ok false, s) := by simp [setWarm, hw]
      rw [M.bind_eq, M.bind, hs] at h
      dsimp only at h
      rw [if_neg (by simp), get_bind, lift_bind] at h
      have hc : fromCompiled E (getCodeHash E s s.rt.cur.scAddress) g true s = (false, s) := by
        unfold fromCompiled; split <;> simp
      rw [hc] at h
      dsimp only at h
      rw [if_neg (by simp)] at h
      unfold fromByteCode at h
      cases hm : E.wasm.compile code with
      | error e => rw [hm] at h; dsimp only at h; rw [modify_bind] at h; simp [M.pure_eq, M.pure] at h
      | ok m =>
        rw [hm] at h
        dsimp only at h
        rw [modify_bind] at h
        simp only [Bool.true_or, if_true] at h
        cases hh : E.crypto.sha256 code with
        | error e => rw [hh] at h; dsimp only at h; rw [modify_bind] at h; simp [M.pure_eq, M.pure] at h
        | ok hsh =>
          rw [hh] at h
          dsimp only at h
          have fin : ∀ (u : St χ A) (k : Option Err → M χ A (Option Err)), (∃ i, u.rt.instance_ = some i ∧ (u.insts i).mod = m) →
              u.rt.verifyCode = true → (∀ e v, k (some e) v ≠ (.ok none, t)) →
              (verifyContractCode E >>= k) u = (.ok none, t) → Vetted E code := by
            intro u k h1 h2 hn h
            rcases bind_ok h with ⟨r, v, h3, h⟩ | ⟨_, h⟩ | ⟨_, h⟩
            · cases r with
              | none => exact verify_vetted hm h1 h2 h3
              | some e => exact absurd h (hn e v)
            · simp at h
            · simp at h
          have hn : ∀ (e : Err) (v : St χ A), (M.modify St.cleanInstance >>= fun _ => pure (some e)) v ≠ (.ok none, t) := by
            intro e v h
            rw [modify_bind] at h
            simp [M.pure_eq, M.pure] at h
          cases hcc : E.wasm.cacheOf code with
          | error e =>
            rw [hcc] at h
            refine fin _ _ ⟨s.nextInst, ?_, ?_⟩ ?_ hn h
            · rfl
            · simp [newInstance]
            · exact hv
          | ok cc =>
            rw [hcc] at h
            dsimp only at h
            rw [modify_bind] at h
            refine fin _ _ ⟨s.nextInst, ?_, ?_⟩ ?_ hn h
            · rfl
            · simp [newInstance]
            · exact hv

theorem deployPrep_vetted {d : CodeDeployInput} {s t : St χ A} (h : deployPrep E ex d s = (.ok none, t)) : Vetted E d.code := by
  unfold deployPrep at h
  rcases bind_ok h with ⟨r, u, h1, h⟩ | ⟨_, h⟩ | ⟨_, h⟩
  · cases r with
    | some e => dsimp only at h; rw [modify_bind] at h; simp [M.pure_eq, M.pure] at h
    | none =>
      dsimp only at h
      rw [modify_bind, get_bind] at h
      rcases bind_ok h with ⟨r, v, h2, h⟩ | ⟨_, h⟩ | ⟨_, h⟩
      · cases r with
        | some e => simp [M.pure_eq, M.pure] at h
        | none => exact startInstance_vetted rfl h2
      · simp at h
      · simp at h
  · simp at h
  · simp at h

/-- Steps of the body of a transaction: the code of a deployment or upgrade that is the transaction itself is installed without
asking the account. -/
inductive StepT (E : Env χ A) (ex : Executor χ A) : St χ A → St χ A → Prop
  | b (s t : St χ A) : StepB E ex s t → StepT E ex s t
  | top (s : St χ A) (d : CodeDeployInput) : Vetted E d.code → StepT E ex s { s with out := s.out.deployCode d }

theorem Run.toT {s t : St χ A} (h : Run (StepB E ex) s t) : Run (StepT E ex) s t := h.mono (fun _ _ => .b _ _)
theorem SimAt.toT {ex' : Executor χ A} {α : Type} {m : M χ A α} {s : St χ A} (h : SimAt ex' (StepB E ex) m s) :
    SimAt ex' (StepT E ex) m s := h.mono (fun _ _ => .b _ _)

/-- the steps of a deployment, given the steps allowed for installing the code -/
theorem sim_deployWith {S : St χ A → St χ A → Prop} (hS : ∀ s t, StepB E ex s t → S s t) (hk : KeepsInst ex) (d : CodeDeployInput)
    (hd : Vetted E d.code → ∀ t : St χ A, S t { t with out := t.out.deployCode d }) (s : St χ A) (hfr : Fresh E s) :
    SimAt ex S (deploySteps E ex d) s := by
  have h1 := (sim_deployPrep hk d s hfr).mono (S' := S) hS
  unfold SimAt at h1 ⊢
  rw [deploySteps_run]
  generalize hq : deployPrep E ex d s = q at h1 ⊢
  obtain ⟨r, t⟩ := q
  match r, h1 with
  | .panic, h1 => exact h1
  | .oof, h1 => exact h1
  | .ok (some e), h1 => exact h1
  | .ok none, h1 => exact .tail h1 (hd (deployPrep_vetted hq) t)

theorem sim_deploySteps (hk : KeepsInst ex) (d : CodeDeployInput) (hp : UpgradeAllowed E d) (s : St χ A) (hfr : Fresh E s) :
    Sim (deploySteps E ex d) s := sim_deployWith (fun _ _ h => h) hk d (fun hv t => .deploy t d hp hv) s hfr
theorem sim_deployTop (hk : KeepsInst ex) (d : CodeDeployInput) (s : St χ A) (hfr : Fresh E s) :
    SimAt ex (StepT E ex) (deploySteps E ex d) s := sim_deployWith (fun _ _ h => .b _ _ h) hk d (fun hv t => .top t d hv) s hfr

theorem permission_allowed {s : St χ A} {i : CallInput} (h : checkUpgradePermission E s i = none) (code metadata : Bytes) :
    UpgradeAllowed E { code := code, metadata := metadata, address := i.recipient, deployer := i.vm.caller } := by
  unfold checkUpgradePermission at h
  split at h
  · cases h
  · cases h
  · rename_i ua hu
    split at h
    · rename_i hc
      simp only [Bool.and_eq_true, decide_eq_true_eq] at hc
      exact ⟨s.world, ua, hu, hc.1, hc.2.symm⟩
    · cases h

theorem sim_executeUpgrade (hk : KeepsInst ex) (i : CallInput) (s : St χ A) (hfr : Fresh E s) : Sim (executeUpgrade E ex i) s := by
  unfold executeUpgrade
  refine sim_get ?_
  cases hper : checkUpgradePermission E s i with
  | some e => exact sim_pure _
  | none =>
    refine sim_bind (sim_extractUpgrade s) (fun r t he _ => ?_)
    have hfr : Fresh E t := by
      refine hfr.of_eq ?_ ?_ <;>
      · simp only [extractUpgrade] at he
        split at he <;> · simp only [Prod.mk.injEq] at he; rw [← he.2]
    cases r with
    | none => exact sim_pure _
    | some p =>
      refine sim_bind (sim_deploySteps hk _ (permission_allowed hper p.1 p.2) t hfr) (fun r u _ _ => ?_)
      cases r with
      | some e => exact sim_pure _
      | none => exact sim_get (sim_ite (fun _ => sim_pure _) (fun _ => sim_pure _))

theorem getSCCode_rt (s : St χ A) : (getSCCode E s).2.rt = { s.rt with codeSize := (getSCCode E s).2.rt.codeSize } := by
  unfold getSCCode
  have : (getCode E s.rt.cur.scAddress s).2.rt = s.rt := by
    unfold getCode
    dsimp only
    repeat' split
    all_goals rfl
  generalize getCode E s.rt.cur.scAddress s = q at this ⊢
  obtain ⟨r, t⟩ := q
  simp only at this
  cases r <;> simp only [this]

theorem sim_execute (hk : KeepsInst ex) (i : CallInput) (s : St χ A) (hfr : Fresh E s) : Sim (execute E ex i) s := by
  unfold execute
  refine sim_get (sim_ite (fun _ => sim_pure _) (fun _ => ?_))
  refine sim_bind (sim_useGas _ s).up (fun _ t he _ => ?_)
  have hfr := hfr.keep (sim_useGas _ s) he
  refine sim_ite (fun _ => sim_executeUpgrade hk i t hfr) (fun _ => ?_)
  refine sim_bind (sim_getSCCode t) (fun r u hgc _ => ?_)
  have he := hgc
  have hfr : Fresh E u := by
    simp only [M.lift, Prod.mk.injEq] at he
    rw [← he.2]
    exact hfr.of_eq (by rw [getSCCode_rt]) (by rw [getSCCode_rt])
  cases r with
  | error e => exact sim_pure _
  | ok code =>
    refine sim_bind (sim_deductForExecution _ u) (fun r v he _ => ?_)
    have hfr := hfr.exec he
    cases r with
    | some e => exact sim_pure _
    | none =>
      refine sim_get (sim_bind (sim_startInstance _ _ _ v hfr (.inr (loaded_code hgc he))) (fun r w _ _ => ?_))
      cases r with
      | some e => exact sim_pure _
      | none =>
        refine sim_bind (sim_callIndirect hk w).up (fun r x _ _ => ?_)
        cases r with
        | some e => exact sim_pure _
        | none => exact sim_get (sim_ite (fun _ => sim_pure _) (fun _ => sim_pure _))

theorem transferValueOnly_rt (d snd : Addr) (v : Int) (c : Bool) (s : St χ A) : (transferValueOnly E d snd v c s).2.rt = s.rt := by
  have hb : (getBalance E snd s).2.rt = s.rt := by
    unfold getBalance
    dsimp only
    repeat' split
    all_goals rfl
  unfold transferValueOnly
  generalize getBalance E snd s = q at hb ⊢
  obtain ⟨b, t⟩ := q
  dsimp only at hb ⊢
  repeat' split
  all_goals first | rfl | exact hb

theorem sim_bodyDest (hk : KeepsInst ex) (i : CallInput) (s : St χ A) (hfr : Fresh E s) : Sim (bodyDest E ex i) s := by
  unfold bodyDest
  have fin : ∀ (e : Option Err) (u : St χ A) (hfr : Fresh E u), Sim (match e with
      | some e => pure (none, some e)
      | none => do
        match (← execute E ex i) with
        | some e => pure (none, some e)
        | none => do
          let s ← M.get
          let (info, r) ← processAsyncInfo E ex s.rt.cur.asyncContextInfo
          match r with
          | .error e => pure (some info, some e)
          | .ok _ => pure (some info, none)) u := by
    intro e u hfr
    cases e with
    | some e => exact sim_pure _
    | none =>
      refine sim_bind (sim_execute hk i u hfr) (fun r t _ _ => ?_)
      cases r with
      | some e => exact sim_pure _
      | none =>
        refine sim_get (sim_bind (sim_processAsyncInfo hk _ t).up (fun r v _ _ => ?_))
        obtain ⟨info, r⟩ := r
        cases r <;> exact sim_pure _
  refine sim_ite (fun _ => ?_) (fun _ => fin none s hfr)
  refine sim_bind (SimAt.up (sim_lift (run_transferValueOnly s _ _ _ _))) (fun e t he _ => fin e t ?_)
  simp only [M.lift, Prod.mk.injEq] at he
  rw [← he.2]
  exact hfr.of_eq (by rw [transferValueOnly_rt]) (by rw [transferValueOnly_rt])

theorem sim_bodySame (hk : KeepsInst ex) (i : CallInput) (s : St χ A) (hfr : Fresh E s) : Sim (bodySame E ex i) s := by
  unfold bodySame
  refine sim_bind (SimAt.up (sim_lift (run_transferValueOnly s _ _ _ _))) (fun e t he _ => ?_)
  cases e with
  | some e => exact sim_pure _
  | none =>
    refine sim_execute hk i t ?_
    simp only [M.lift, Prod.mk.injEq] at he
    rw [← he.2]
    exact hfr.of_eq (by rw [transferValueOnly_rt]) (by rw [transferValueOnly_rt])

theorem sim_functionByCallType (ct : CallType) (s : St χ A) : Sim (functionByCallType E ct) s := by
  unfold functionByCallType
  refine sim_ite (fun _ => ?_) (fun _ => ?_)
  · refine sim_bind (sim_getFunctionToCall s).up (fun r t _ _ => ?_)
    cases r <;> exact sim_pure _
  · refine sim_bind (sim_currentAsyncInfo s).up (fun r t _ _ => ?_)
    cases r with
    | error e => exact sim_pure _
    | ok info =>
      refine sim_get ?_
      split
      · refine sim_modify_bind (.step (.callFunction t _)) ?_
        refine sim_bind (sim_getFunctionToCall _).up (fun r t _ _ => ?_)
        cases r <;> exact sim_pure _
      · refine sim_bind (sim_getFunctionToCall _).up (fun r t _ _ => ?_)
        cases r <;> exact sim_pure _

theorem sim_processCallbackStack (s : St χ A) : Sim (processCallbackStack E) s := by
  unfold processCallbackStack
  refine sim_get (sim_bind (sim_getStorageUnmetered _ s).up (fun b t _ _ => sim_ite (fun _ => sim_pure _) (fun _ => ?_)))
  split
  · exact sim_pure _
  · split
    · exact sim_pure _
    · dsimp only
      refine sim_ite (fun _ => sim_pure _) (fun _ => ?_)
      refine sim_bind (sim_setProtectedStorage _ _ ⟨_, .inr rfl⟩ t).up (fun r u _ _ => ?_)
      obtain ⟨st, e⟩ := r
      cases e with
      | some e => exact sim_pure _
      | none =>
        refine sim_bind (sim_canExecSync _ u).up (fun b v _ _ => sim_ite (fun _ => ?_) (fun _ => (sim_sendStorageCallback _ _ v).up))
        exact sim_bind (sim_lift (.step (.finalize v))) (fun _ _ _ _ => sim_panic)

theorem sim_afterMethod (hk : KeepsInst ex) (ct : CallType) (s : St χ A) : Sim (afterMethod E ex ct) s := by
  unfold afterMethod
  refine sim_get ?_
  split
  · refine sim_bind (sim_processAsyncInfo hk _ s).up (fun r t _ _ => ?_)
    obtain ⟨i, r⟩ := r
    cases r with
    | error e => exact sim_pure _
    | ok p => exact sim_ite (fun _ => (sim_sendCallbackToCaller t).up) (fun _ => sim_pure _)
  · exact sim_processCallbackStack s
  · refine sim_bind (sim_processAsyncInfo hk _ s).up (fun r t _ _ => ?_)
    obtain ⟨i, r⟩ := r
    cases r <;> exact sim_pure _

theorem sim_callMethod (hk : KeepsInst ex) (s : St χ A) : Sim (callMethod E ex) s := by
  unfold callMethod
  refine sim_get ?_
  split
  · exact sim_pure _
  · refine sim_bind (sim_functionByCallType _ s) (fun r t _ _ => ?_)
    split
    · exact sim_ite (fun _ => sim_processCallbackStack t) (fun _ => sim_pure _)
    · exact sim_panic
    · refine sim_bind (sim_callFunction hk _ t).up (fun r u _ _ => ?_)
      cases r with
      | some e => exact sim_pure _
      | none =>
        refine sim_bind (sim_gets _) (fun r u _ _ => ?_)
        cases r with
        | some e => exact sim_pure _
        | none => exact sim_afterMethod hk _ u

end
end Arwen
