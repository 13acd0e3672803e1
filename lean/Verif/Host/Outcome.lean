import Verif.Host.Triple
/-
The return code during a transaction: it stays Ok until the execution is failed, and a failed execution ends with an error.
-/
namespace Arwen
variable {χ A : Type} {E : Env χ A} {ex : Executor χ A}

/-- built-in functions of the node that do not answer with an error report the code Ok -/
def OkBuiltins (E : Env χ A) : Prop := ∀ w i b, (E.hook.processBuiltIn w i).1 = .ok b → b.out.returnCode = .ok

/-- nested calls keep the return code Ok -/
structure FineEx (ex : Executor χ A) : Prop where
  dest : ∀ i, Keeps Fine (ex.dest i)
  same : ∀ i, Keeps Fine (ex.same i)

theorem addTransferToOutput_rc (f : Bytes) (args : List Bytes) (s r : Addr) (ct : CallType) (o : VMOutput) :
    (addTransferToOutput f args s r ct o).returnCode = o.returnCode := rfl

theorem addEsdtTransfer_rc (s : St χ A) (i : CallInput) (o : VMOutput) : (addEsdtTransfer E s i o).returnCode = o.returnCode := by
  unfold addEsdtTransfer
  repeat' split
  all_goals first | rfl | exact addTransferToOutput_rc ..

theorem BuiltinFrom.rc (hB : OkBuiltins E) {w : χ} {i : CallInput} {b : BuiltinOutput} (h : BuiltinFrom E w i b) :
    b.out.returnCode = .ok := by
  obtain ⟨b0, p, s, h1, rfl⟩ := h
  dsimp only
  rw [addEsdtTransfer_rc]
  have := hB _ _ _ h1
  split <;> exact this

theorem runH_fine (hB : OkBuiltins E) {s t : St χ A} (h : Run (StepH E) s t) (hs : Fine s) : Fine t := by
  refine h.inv (P := Fine) (fun u v hv hu => ?_) hs
  cases hv with
  | inst i g hi => exact hu
  | world i => exact hu
  | merge i b hb => exact hb.rc hB

theorem fine_outputOnError (e : Err) (s : St χ A) (h : Fine s) : Fine (outputOnError E e s).2 := h

theorem bcPopSet_fine {s : St χ A} (h : Fine s) : Fine (St.bcPopSet E s) := by
  unfold Fine; rw [(bcPopSet_rest (E := E) s).1]; exact h

theorem destOutput_ok {e : Option Err} {u : St χ A} (h : (destOutput E e u).1.returnCode = .ok) :
    (destOutput E e u).2.out.cur.returnCode = .ok := by
  cases e with
  | some e => exact absurd h (resolveReturnCode_ne e)
  | none =>
    rw [show destOutput E none u = getVMOutput E u from rfl, getVMOutput_run] at h ⊢
    cases hc : (updateGasOnSuccess (readyState u)).1 with
    | some e => rw [hc] at h; exact absurd h (resolveReturnCode_ne e)
    | none => rw [hc] at h; exact h

theorem updateGasOnSuccess_rc (s : St χ A) : (updateGasOnSuccess s).2.out.cur.returnCode = s.out.cur.returnCode := by
  have h1 : (updateSCGasUsed s).out.cur.returnCode = s.out.cur.returnCode := getAcc_rc s.out s.rt.cur.scAddress
  have h2 : (setGasUsed (updateSCGasUsed s)).2.out.cur.returnCode = (updateSCGasUsed s).out.cur.returnCode := rfl
  unfold updateGasOnSuccess
  generalize setGasUsed (updateSCGasUsed s) = q at h2 ⊢
  obtain ⟨e, t⟩ := q
  rw [← h1, ← h2]
  cases e <;> rfl

theorem getVMOutput_fine {s : St χ A} (h : Fine s) : Fine (getVMOutput E s).2 := by
  have h1 : (updateGasOnSuccess (readyState s)).2.out.cur.returnCode = .ok := (updateGasOnSuccess_rc _).trans h
  unfold Fine
  rw [getVMOutput_run]
  cases hc : (updateGasOnSuccess (readyState s)).1 with
  | some e => exact h1
  | none => exact h1

theorem cleanInstance_out (s : St χ A) : s.cleanInstance.out = s.out := by
  unfold St.cleanInstance
  split
  · rfl
  · split <;> rfl
theorem rtPopSet_out (s : St χ A) : (St.rtPopSet s).out = s.out := by
  unfold St.rtPopSet
  split
  · rfl
  · unfold St.popInstance
    split
    · rfl
    · dsimp only
      split
      · rfl
      · exact cleanInstance_out _

theorem fineEx_execN (hB : OkBuiltins E) : ∀ n, FineEx (execN E n)
  | 0 => ⟨fun i s a t _ h => by simp [execN, M.oof] at h, fun i s a t _ h => by simp [execN, M.oof] at h⟩
  | n + 1 => by
    have hF := frameEx_execN E n
    refine ⟨fun i s a t hs h => ?_, fun i s a t hs h => ?_⟩
    · rcases execDest_any i s t _ h with ⟨a', ha, h⟩ | ⟨h, _⟩ | ⟨h, _⟩
      · cases h with
        | failed u e hr _ => exact fine_outputOnError e _ (bcPopSet_fine (runH_fine hB hr hs))
        | builtin u o hr _ => exact (runH_fine hB hr hs : Fine u)
        | called u w v j info e r hr hj hb hf =>
          obtain ⟨hl, _, _⟩ := finDest_left e info j u w v _ (bodyDest_frame hF hb).1 hf
          have hv : Fine v := by
            by_cases hc : a'.output.returnCode = .ok
            · unfold Fine
              rw [(hl.ok hc).1]
              refine destOutput_ok ?_
              rw [← hl.out_eq]; exact hc
            · unfold Fine
              rw [(hl.failed hc).1]; exact runH_fine hB hr hs
          split
          · exact bcPopSet_fine hv
          · exact hv
      · simp at h
      · simp at h
    · rcases execSame_any i s t _ h with ⟨_, h, _⟩ | ⟨_, ⟨e', u, h1, h2⟩ | ⟨h, _⟩ | ⟨h, _⟩⟩
      · rw [h]; exact hs
      · rcases h2 with ⟨h2, h3⟩ | ⟨h2, _⟩
        · have hb := ((sim_bodySame (E := E) hF.keeps _ _ (fresh_enterSame _ _)).ok h1).frame hF
          by_cases hc : u.out.cur.returnCode ≠ .ok ∨ e'.isSome
          · rw [finishSame_fail _ u hc] at h3
            simp only [Prod.mk.injEq] at h3
            rw [← h3.2]
            have hout : u.out.stack = s.out.cur :: s.out.stack := by
              have : u.out.stack = mergeOut {} s.out.cur :: s.out.stack := hb.1.out
              rw [this, mergeOut_empty]
            unfold popSameFail
            refine bcPopSet_fine ?_
            unfold Fine
            rw [rtPopSet_out]
            simp only [OutCtx.popSet, hout]
            exact hs
          · have hu : u.out.cur.returnCode = .ok := by
              by_cases h : u.out.cur.returnCode = .ok
              · exact h
              · exact absurd (.inl h) hc
            have he : e' = none := by
              cases e' with
              | none => rfl
              | some e => exact absurd (.inr rfl) hc
            subst he
            rw [finishSame_ok u hu] at h3
            refine fine_restoreGas _ _ _ _ ?_ h3
            unfold Fine popSameOk
            rw [rtPopSet_out]
            exact getVMOutput_fine (E := E) hu
        · simp at h2
      · simp at h
      · simp at h

/-! ### API functions -/

/-- a command that fails the execution is followed only by charges -/
def Final (c : Cmd) (k : c.Resp → Eei.P χ A) : Prop := c.fails = true → ∀ r, Eei.Only Eei.Charge (k r)

/-- API functions only charge gas after they failed the execution -/
def FinalApi (E : Env χ A) : Prop := ∀ a, Eei.Only Final (E.api a)

theorem Only.weaken {α : Type} {Q Q' : (c : Cmd) → (c.Resp → Free χ A α) → Prop} (h : ∀ c k, Q c k → Q' c k) :
    ∀ {p : Free χ A α}, Eei.Only Q p → Eei.Only Q' p
  | .pure _, _ => trivial
  | .panic, _ => trivial
  | .ask _, ho => fun s => Only.weaken h (ho s)
  | .op _ _, ho => ⟨h _ _ ho.1, fun r => Only.weaken h (ho.2 r)⟩

theorem finalApi_eei {E : Env χ EeiCall} (h : E.api = eei E) : FinalApi E := by
  intro a
  rw [h]
  exact Only.weaken (fun c k h => h.2.1) (Eei.eei_proper E a)

theorem finalApi_without {E : Env χ EeiCall} (l : List Power) : FinalApi (E.without l) := by
  intro a
  show Eei.Only Final (if a.powers.any (fun p => l.contains p) then .panic else eei E a)
  split
  · trivial
  · exact Only.weaken (fun c k h => h.2.1) (Eei.eei_proper E a)

/-- the instance was stopped by a failure -/
def Stopped (i : Nat) (s : St χ A) : Prop :=
  (s.insts i).bp = .executionFailed ∨ (s.insts i).bp = .signalError ∨ (s.insts i).bp = .outOfGas

theorem fine_createNewContract (hx : FineEx ex) (i : CreateInput) : Keeps Fine (createNewContract E ex i) := by
  unfold createNewContract
  refine keep_bind (tri_get' fun _ => fine_deductInitialGas _ _ _) fun r => ?_
  split
  · exact keep_pure
  refine tri_get' fun _ => tri_ite (fun _ => keep_pure) (fun _ => ?_)
  refine keep_bind (keep_lift fun s h => fine_newAddress _ s h) fun r => ?_
  split
  · exact keep_pure
  refine tri_get' fun _ => tri_ite (fun _ => keep_pure) (fun _ => ?_)
  refine keep_bind (keep_modify fun _ h => h) fun _ => keep_bind (keep_modify fun _ h => h) fun _ => keep_bind (hx.dest _) fun r => ?_
  split
  · exact keep_bind (keep_modify fun _ h => h) fun _ => keep_pure
  · exact keep_bind (keep_modify fun _ h => fine_increaseNonce _ _ h) fun _ => keep_pure

theorem fine_runCmd (hx : FineEx ex) (c : Cmd) (hc : c.fails = false) : Keeps Fine (runCmd E ex c) := by
  cases c with
  | useGas n => exact fine_useGas n
  | memStore off data => exact fine_memStore off data
  | failExecution e => simp [Cmd.fails] at hc
  | signalUserError m => simp [Cmd.fails] at hc
  | executeAsyncCall a d v => exact fine_executeAsyncCall a d v
  | addAsyncContextCall id c => exact keep_modify fun _ h => h
  | setAsyncContextCallback id cb =>
    refine keep_lift fun s h => ?_
    unfold setAsyncContextCallback
    dsimp only
    split <;> exact h
  | getBalance a => exact keep_lift fun s h => fine_getBalance a s h
  | getCode a => exact keep_lift fun s h => fine_getCode a s h
  | getStorage k => exact fine_getStorage k
  | getStorageUnmetered k => exact fine_getStorageUnmetered k
  | getStorageFromAddress a k => exact fine_getStorageFromAddress a k
  | setStorage k v => exact fine_setStorage k v
  | setTimeLock k v => exact fine_setProtectedStorage _ v
  | finish d => exact keep_modify fun _ h => h
  | writeLog a t d =>
    refine keep_modify fun s h => ?_
    unfold Fine OutCtx.writeLog
    split <;> exact h
  | transfer d sn gl gk v data ct => exact keep_lift fun s h => fine_transfer d sn gl gk v data ct s h
  | transferESDT d sn tok n v ci => exact fine_transferESDT d sn tok n v ci
  | bigGet h => exact keep_lift fun _ h => h
  | bigSet h v => exact keep_modify fun _ h => h
  | bigPut v => exact keep_lift fun _ h => h
  | executeOnDest i => exact keep_bind (hx.dest i) fun _ => keep_pure
  | executeOnSame i => exact hx.same i
  | executeReadOnly i =>
    exact keep_bind (keep_modify fun _ h => h) fun _ => keep_bind (hx.same i) fun _ => keep_bind (keep_modify fun _ h => h) fun _ => keep_pure
  | createContract i => exact fine_createNewContract hx i
  | revertSnapshot n => exact keep_modify fun _ h => h
  | outOfGas => simp [Cmd.fails] at hc

theorem stopped_runCmd {i : Nat} (c : Cmd) (hc : c.fails = true) :
    Tri (fun s => s.rt.instance_ = some i) (runCmd E ex c) (fun _ s => s.rt.instance_ = some i ∧ Stopped i s) := by
  intro s a t hi he
  cases c <;> simp only [Cmd.fails, Bool.false_eq_true] at hc
  all_goals
    simp only [runCmd, failExecution, signalUserError, M.bind_eq, M.bind, M.modify, setBreakpoint, hi] at he
    have he := congrArg Prod.snd he
    dsimp only at he
    rw [← he]
    refine ⟨hi, ?_⟩
    simp [Stopped, St.modInst]

theorem stopped_useGas {i : Nat} (n : UInt64) : Keeps (fun s : St χ A => s.rt.instance_ = some i ∧ Stopped i s) (useGas n) := by
  intro s a t ⟨hi, hs⟩ he
  simp only [useGas, M.bind_eq, M.bind, M.get, setPointsUsed, hi, Prod.mk.injEq] at he
  rw [← he.2]
  refine ⟨hi, ?_⟩
  simpa [Stopped, St.modInst] using hs

theorem stopped_charge {i : Nat} : ∀ {p : Eei.P χ A}, Eei.Only Eei.Charge p →
    Keeps (fun s : St χ A => s.rt.instance_ = some i ∧ Stopped i s) (interp E ex p)
  | .pure _, _ => keep_pure
  | .panic, _ => tri_panic
  | .ask k, ho => fun s a t hs he => stopped_charge (ho s) s a t hs he
  | .op c k, ho => by
    have h := fun r => stopped_charge (i := i) (ho.2 r)
    obtain ⟨n, hn⟩ := ho.1
    subst hn
    exact keep_bind (stopped_useGas n) h

/-- after an API function: still fine, or the instance is stopped -/
theorem fine_interp (hk : KeepsInst ex) (hx : FineEx ex) {i : Nat} : ∀ {p : Eei.P χ A}, Eei.Only Final p →
    (∀ c, MayRun c p → ApiRuns E c) →
    Tri (fun s => s.rt.instance_ = some i ∧ Fine s) (interp E ex p) (fun _ s => s.rt.instance_ = some i ∧ (Fine s ∨ Stopped i s))
  | .pure _, _, _ => tri_pure fun s h => ⟨h.1, .inl h.2⟩
  | .panic, _, _ => tri_panic
  | .ask k, ho, hc => fun s a t hs he => fine_interp hk hx (ho s) (fun c h => hc c ⟨s, h⟩) s a t hs he
  | .op c k, ho, hc => by
    cases hf : c.fails with
    | true =>
      refine tri_bind (T := fun _ s => s.rt.instance_ = some i ∧ Stopped i s) ?_ fun r => ?_
      · exact tri_pre (stopped_runCmd c hf) fun s h => h.1
      · exact tri_post (stopped_charge (ho.1 hf r)) fun a s h => ⟨h.1, .inr h.2⟩
    | false =>
      refine tri_bind (T := fun _ s => s.rt.instance_ = some i ∧ Fine s) ?_ fun r => fine_interp hk hx (ho.2 r) (fun c h => hc c (.inr ⟨r, h⟩))
      intro s a t ⟨hi, hs⟩ he
      exact ⟨((sim_runCmd (back := true) hk c (hc c (.inl rfl)) s).ok he).inst_eq.trans hi, fine_runCmd hx c hf s a t hs he⟩

/-- after a function of a contract: fine if it returned, else fine or stopped -/
theorem fine_runProg (hA : FinalApi E) (hk : KeepsInst ex) (hx : FineEx ex) {i : Nat} : ∀ p : Prog A,
    Tri (fun s => s.rt.instance_ = some i ∧ Fine s) (runProg E ex i p)
      (fun r s => s.rt.instance_ = some i ∧ (Fine s ∨ r = false ∧ Stopped i s))
  | .ret => tri_pure fun s h => ⟨h.1, .inl h.2⟩
  | .trap => tri_pure fun s h => ⟨h.1, .inl h.2⟩
  | .burn n k => by
    unfold runProg
    refine tri_get' fun s => keep_bind (keep_modify fun _ h => h) fun _ => tri_ite (fun _ => ?_) (fun _ => fine_runProg hA hk hx k)
    exact keep_bind (keep_modify fun _ h => h) fun _ => tri_pure fun s h => ⟨h.1, .inl h.2⟩
  | .call a k => by
    unfold runProg
    refine tri_bind (fine_interp hk hx (hA a) (fun c h => ⟨a, h⟩)) fun r => ?_
    refine tri_get fun s hs => tri_ite (fun _ => tri_pure fun t ht => ?_) (fun hn => ?_)
    · subst ht; exact ⟨hs.1, hs.2.imp id fun h => ⟨rfl, h⟩⟩
    · refine tri_pre (fine_runProg hA hk hx (k r)) fun t ht => ?_
      subst ht
      refine ⟨hs.1, hs.2.resolve_right fun h => ?_⟩
      rcases h with h | h | h <;> simp [h] at hn
  | .load off len k => by
    unfold runProg
    refine tri_get' fun s => ?_
    dsimp only
    exact tri_ite (fun _ => fine_runProg hA hk hx _) (fun _ => tri_pure fun s h => ⟨h.1, .inl h.2⟩)
  | .store off bs k => by
    unfold runProg
    refine tri_get' fun s => tri_ite (fun _ => keep_bind (keep_modify fun _ h => h) fun _ => fine_runProg hA hk hx k)
      (fun _ => tri_pure fun s h => ⟨h.1, .inl h.2⟩)

/-! ### Asynchronous calls and the end of an execution -/

/-- fine, unless an error is returned -/
def EndsFine (e : Option Err) (s : St χ A) : Prop := e = none → Fine s

theorem ends_some {α : Type} {P : St χ A → Prop} (e : Err) (f : Option Err → α) (g : α → Option Err) (hg : g (f (some e)) = some e) :
    Tri P (pure (f (some e))) (fun r => EndsFine (g r)) := tri_pure fun _ _ h => by rw [hg] at h; cases h
theorem ends_err {P : St χ A → Prop} (e : Err) : Tri P (pure (some e)) EndsFine := tri_pure fun _ _ h => by cases h
theorem ends_none : Tri (Fine (χ := χ) (A := A)) (pure none) EndsFine := tri_pure fun _ h _ => h
theorem ends_of_fine {m : M χ A (Option Err)} (h : Keeps Fine m) : Tri Fine m EndsFine := tri_post h fun _ _ h _ => h

theorem ends_faulted {P : St χ A → Prop} (e e' : Err) : Tri P (do withFault E e; pure (some e')) EndsFine :=
  tri_bind tri_any fun _ => ends_err _

theorem fine_sendAsync (v : AsyncView) : Tri Fine (sendAsync E v) EndsFine := by
  unfold sendAsync
  refine tri_get' fun s => keep_bind (keep_lift fun s h => fine_transfer _ _ _ _ _ _ _ s h) fun r => ?_
  split
  · exact tri_bind tri_any fun _ => ends_err _
  · exact tri_get' fun _ => keep_bind (fine_useGas _) fun _ => ends_none
theorem fine_sendCallbackToCaller : Tri Fine (sendCallbackToCaller E) EndsFine := by
  unfold sendCallbackToCaller
  refine tri_get' fun s => keep_bind (keep_lift fun s h => fine_transfer _ _ _ _ _ _ _ s h) fun r => ?_
  split
  · exact tri_bind tri_any fun _ => ends_err _
  · exact tri_get' fun _ => keep_bind (fine_useGas _) fun _ => ends_none
theorem fine_sendStorageCallback (c : Addr) (d : Bytes) : Tri Fine (sendStorageCallback E c d) EndsFine := by
  unfold sendStorageCallback
  refine tri_get' fun s => keep_bind (keep_lift fun s h => fine_transfer _ _ _ _ _ _ _ s h) fun r => ?_
  split
  · exact tri_bind tri_any fun _ => ends_err _
  · exact ends_none

theorem fine_canExecSync (d : Addr) : Keeps Fine (canExecSync E d) := by
  unfold canExecSync
  refine keep_bind (keep_lift fun s h => fine_getCode _ s h) fun r => ?_
  split <;> exact keep_pure
theorem fine_asyncMode (i : AsyncCallInfo) : Keeps Fine (asyncMode E i) := by
  unfold asyncMode
  split
  · exact keep_pure
  refine tri_get' fun _ => tri_ite (fun _ => tri_ite (fun _ => tri_ite (fun _ => keep_pure) (fun _ => keep_pure)) (fun _ => keep_pure))
    (fun _ => keep_bind (fine_canExecSync _) fun _ => tri_ite (fun _ => keep_pure) (fun _ => keep_pure))
theorem fine_processCallbackOutput (o : Option VMOutput) (e : Option Err) : Keeps Fine (processCallbackOutput E o e) := by
  unfold processCallbackOutput
  split
  · exact keep_pure
  refine keep_bind (keep_modify fun _ h => h) fun _ => ?_
  split
  · exact keep_modify fun _ h => h
  · exact keep_bind (keep_lift fun s h => fine_outputOnError _ s h) fun _ => keep_modify fun _ h => h
theorem fine_execSyncDest (hx : FineEx ex) (v : AsyncView) : Keeps Fine (execSyncDest ex v) := by
  unfold execSyncDest
  refine tri_get' fun _ => ?_
  split
  · exact keep_pure
  · exact keep_bind (hx.dest _) fun _ => keep_pure
theorem fine_execSyncCallback (hx : FineEx ex) (v : AsyncView) (o : Option VMOutput) (e : Option Err) :
    Keeps Fine (execSyncCallback ex v o e) := by
  unfold execSyncCallback
  split
  · exact tri_panic
  refine tri_get' fun _ => ?_
  split
  · exact keep_pure
  · exact keep_bind (fine_restoreGas _) fun _ => keep_bind (hx.dest _) fun _ => keep_pure

theorem fine_handleAsyncBreakpoint (hx : FineEx ex) : Tri Fine (handleAsyncBreakpoint E ex) EndsFine := by
  unfold handleAsyncBreakpoint
  refine keep_bind (fine_setBreakpoint _) fun _ => tri_get' fun _ => ?_
  split
  · exact tri_panic
  refine keep_bind (fine_asyncMode _) fun r => ?_
  split
  · exact ends_err _
  · exact fine_sendAsync _
  · exact ends_of_fine (keep_bind (fine_execSyncDest hx _) fun _ => keep_pure)
  · exact keep_bind (keep_modify fun _ h => h) fun _ => keep_bind (fine_restoreGas _) fun _ => ends_none
  · exact keep_bind (fine_execSyncDest hx _) fun _ => keep_bind (fine_execSyncCallback hx _ _ _) fun _ =>
      keep_bind (fine_processCallbackOutput _ _) fun _ => ends_none

theorem fine_callFunction (hA : FinalApi E) (hk : KeepsInst ex) (hx : FineEx ex) (f : Prog A) :
    Tri Fine (callFunction E ex f) EndsFine := by
  unfold callFunction
  refine tri_get fun s hs => ?_
  split
  · exact tri_panic
  rename_i i hi
  refine tri_bind (T := fun r s => s.rt.instance_ = some i ∧ (Fine s ∨ r = false ∧ Stopped i s)) ?_ fun r => ?_
  · exact tri_pre (fine_runProg hA hk hx f) fun t ht => by subst ht; exact ⟨hi, hs⟩
  cases r with
  | true => exact tri_pure fun t ht _ => ht.2.resolve_right fun h => by simp at h
  | false =>
    show Tri _ (handleBreakpoint E ex) EndsFine
    unfold handleBreakpoint
    intro s a t ⟨hi, hs⟩ he
    simp only [M.bind_eq, M.bind, getBreakpoint, hi] at he
    cases hb : (s.insts i).bp with
    | none => rw [hb] at he; exact ends_err (P := fun _ => True) _ s a t trivial he
    | asyncCall =>
      rw [hb] at he
      have hf : Fine s := hs.resolve_right fun h => by rcases h.2 with h | h | h <;> simp [hb] at h
      exact fine_handleAsyncBreakpoint hx s a t hf he
    | executionFailed => rw [hb] at he; exact ends_err (P := fun _ => True) _ s a t trivial he
    | signalError => rw [hb] at he; exact ends_err (P := fun _ => True) _ s a t trivial he
    | outOfGas => rw [hb] at he; exact ends_err (P := fun _ => True) _ s a t trivial he

theorem fine_callbackAsync (hx : FineEx ex) (c : AsyncGeneratedCall) (o : VMOutput) (e : Option Err) :
    Keeps Fine (callbackAsync E ex c o e) := by
  unfold callbackAsync
  refine tri_get' fun _ => ?_
  split
  · exact keep_pure
  · exact keep_bind (hx.dest _) fun _ => keep_bind (fine_processCallbackOutput _ _) fun _ => keep_pure
theorem fine_processAsyncCall (hx : FineEx ex) (c : AsyncGeneratedCall) : Keeps Fine (processAsyncCall E ex c) := by
  unfold processAsyncCall
  refine tri_get' fun _ => ?_
  split
  · exact tri_panic
  refine keep_bind (hx.dest _) fun r => ?_
  split
  · exact tri_panic
  · exact tri_ite (fun _ => fine_callbackAsync hx _ _ _) (fun _ => keep_pure)
theorem fine_processCalls (hx : FineEx ex) : ∀ l, Keeps Fine (processCalls E ex l)
  | [] => keep_pure
  | c :: rest => by
    unfold processCalls
    refine keep_bind (fine_canExecSync _) fun r => tri_ite (fun _ => ?_) (fun _ => keep_bind (fine_processCalls hx rest) fun _ => keep_pure)
    refine keep_bind (fine_processAsyncCall hx c) fun p => ?_
    dsimp only
    split
    · exact keep_pure
    · exact keep_bind (fine_processCalls hx rest) fun _ => keep_pure
theorem fine_processContexts (hx : FineEx ex) : ∀ l info, Keeps Fine (processContexts E ex l info)
  | [], _ => keep_pure
  | id :: rest, info => by
    unfold processContexts
    refine keep_bind (fine_processCalls hx _) fun p => ?_
    dsimp only
    split
    · exact keep_pure
    · exact fine_processContexts hx rest _
theorem fine_sendPending : ∀ l, Tri Fine (sendPending E l) EndsFine
  | [] => ends_none
  | c :: rest => by
    unfold sendPending
    refine keep_bind (fine_canExecSync _) fun r => tri_ite (fun _ => fine_sendPending rest) (fun _ => ?_)
    refine tri_bind (fine_sendAsync _) fun r => ?_
    split
    · exact ends_err _
    · exact tri_pre (fine_sendPending rest) fun s h => h rfl
theorem fine_savePending (info : AsyncContextInfo) : Keeps Fine (savePending E info) := by
  unfold savePending
  refine tri_ite (fun _ => keep_pure) (fun _ => tri_get' fun _ => ?_)
  split
  · exact keep_pure
  · exact keep_bind (fine_setProtectedStorage _ _) fun _ => keep_pure
theorem fine_processAsyncInfo (hx : FineEx ex) (info : AsyncContextInfo) :
    Tri Fine (processAsyncInfo E ex info) (fun r s => (∃ p, r.2 = .ok p) → Fine s) := by
  have hok : ∀ (i : AsyncContextInfo) (x : Except Err AsyncContextInfo), Tri (Fine (χ := χ) (A := A)) (pure (i, x))
      (fun r s => (∃ p, r.2 = .ok p) → Fine s) := fun i x => tri_pure fun _ h _ => h
  have herr : ∀ (P : St χ A → Prop) (i : AsyncContextInfo) (e : Err), Tri P (pure (i, (Except.error e : Except Err AsyncContextInfo)))
      (fun r s => (∃ p, r.2 = .ok p) → Fine s) := fun P i x => tri_pure fun _ _ h => by obtain ⟨p, h⟩ := h; simp at h
  unfold processAsyncInfo
  refine tri_ite (fun _ => hok _ _) (fun _ => tri_get' fun _ => ?_)
  split
  · exact herr _ _ _
  refine keep_bind (fine_processContexts hx _ _) fun p => ?_
  dsimp only
  split
  · exact herr _ _ _
  refine tri_ite (fun _ => hok _ _) (fun _ => keep_bind (fine_savePending _) fun r => ?_)
  split
  · exact herr _ _ _
  refine tri_get' fun _ => ?_
  split
  · exact herr _ _ _
  refine tri_bind (fine_sendPending _) fun r => ?_
  split
  · exact herr _ _ _
  · exact tri_pre (hok _ _) fun s h => h rfl
theorem fine_processCallbackStack : Tri Fine (processCallbackStack E) EndsFine := by
  unfold processCallbackStack
  refine tri_get' fun _ => keep_bind (fine_getStorageUnmetered _) fun r => tri_ite (fun _ => ends_none) (fun _ => ?_)
  split
  · exact ends_err _
  split
  · exact ends_err _
  refine tri_ite (fun _ => ends_none) (fun _ => keep_bind (fine_setProtectedStorage _ _) fun p => ?_)
  dsimp only
  split
  · exact ends_err _
  refine keep_bind (fine_canExecSync _) fun r => tri_ite (fun _ => ?_) (fun _ => fine_sendStorageCallback _ _)
  exact tri_bind tri_any fun _ => tri_panic

/-! ### The body of a transaction -/

theorem fine_getFunctionToCall : Keeps (Fine (χ := χ) (A := A)) getFunctionToCall := by
  unfold getFunctionToCall
  refine keep_bind fine_curInst fun r => tri_get' fun _ => ?_
  split
  · exact keep_pure
  · exact tri_ite (fun _ => keep_pure) (fun _ => keep_pure)
theorem fine_functionByCallType (ct : CallType) : Keeps Fine (functionByCallType E ct) := by
  unfold functionByCallType
  refine tri_ite (fun _ => keep_bind fine_getFunctionToCall fun r => ?_) (fun _ => ?_)
  · split <;> exact keep_pure
  refine keep_bind (m := currentAsyncInfo E) ?_ fun r => ?_
  · unfold currentAsyncInfo
    exact tri_get' fun _ => keep_bind (fine_getStorageUnmetered _) fun _ => tri_ite (fun _ => keep_pure) (fun _ => keep_pure)
  split
  · exact keep_pure
  refine tri_get' fun _ => ?_
  split
  · refine keep_bind (keep_modify fun _ h => h) fun _ => keep_bind fine_getFunctionToCall fun r => ?_
    split <;> exact keep_pure
  · refine keep_bind fine_getFunctionToCall fun r => ?_
    split <;> exact keep_pure
theorem fine_afterMethod (hx : FineEx ex) (ct : CallType) : Tri Fine (afterMethod E ex ct) EndsFine := by
  unfold afterMethod
  refine tri_get' fun _ => ?_
  split
  · refine tri_bind (fine_processAsyncInfo hx _) fun p => ?_
    dsimp only
    split
    · exact ends_err _
    · rename_i pending h
      refine tri_pre (P := Fine) (tri_ite (fun _ => fine_sendCallbackToCaller) (fun _ => ends_none)) fun s hs => hs ⟨_, h⟩
  · exact fine_processCallbackStack
  · refine tri_bind (fine_processAsyncInfo hx _) fun p => ?_
    dsimp only
    split
    · exact ends_err _
    · rename_i pending h
      exact tri_pre (P := Fine) ends_none fun s hs => hs ⟨_, h⟩
theorem fine_callMethod (hA : FinalApi E) (hk : KeepsInst ex) (hx : FineEx ex) : Tri Fine (callMethod E ex) EndsFine := by
  unfold callMethod
  refine tri_get' fun _ => ?_
  split
  · exact ends_err _
  refine keep_bind (fine_functionByCallType _) fun r => ?_
  split
  · exact tri_ite (fun _ => fine_processCallbackStack) (fun _ => ends_err _)
  · exact tri_panic
  refine tri_bind (fine_callFunction hA hk hx _) fun r => ?_
  split
  · exact ends_err _
  refine tri_bind (T := fun _ => Fine) (tri_gets fun s h => h rfl) fun r => ?_
  split
  · exact ends_err _
  · exact fine_afterMethod hx _
theorem fine_callInit (hA : FinalApi E) (hk : KeepsInst ex) (hx : FineEx ex) : Tri Fine (callInit E ex) EndsFine := by
  unfold callInit
  refine keep_bind (m := getInitFunction) (keep_bind fine_curInst fun _ => keep_pure) fun r => ?_
  split
  · exact ends_none
  refine tri_bind (fine_callFunction hA hk hx _) fun r => ?_
  split
  · exact ends_err _
  · exact tri_gets fun s h _ => h rfl

theorem cleanInstance_ctx (s : St χ A) :
    s.cleanInstance.out = s.out ∧ s.cleanInstance.rt.cur = s.rt.cur ∧ s.cleanInstance.met = s.met := by
  unfold St.cleanInstance
  split
  · exact ⟨rfl, rfl, rfl⟩
  · split <;> exact ⟨rfl, rfl, rfl⟩

section
variable {P : OutCtx → RtCore → MeterCtx → Prop}
theorem keepOut_verifyContractCode : Keeps (fun s : St χ A => P s.out s.rt.cur s.met) (verifyContractCode E) := by
  unfold verifyContractCode
  refine tri_get' fun _ => tri_ite (fun _ => keep_pure) (fun _ => keep_bind (keep_modify fun _ h => h) fun _ => ?_)
  split
  · exact tri_panic
  · exact keep_pure
theorem keepOut_cleanInstance : Keeps (fun s : St χ A => P s.out s.rt.cur s.met) (M.modify St.cleanInstance) :=
  keep_modify fun s h => by
    have := cleanInstance_ctx s
    rw [this.1, this.2.1, this.2.2]; exact h
theorem keepOut_fromByteCode (code h : Bytes) (g : UInt64) (new : Bool) : Keeps (fun s : St χ A => P s.out s.rt.cur s.met) (fromByteCode E code h g new) := by
  unfold fromByteCode
  split
  · exact keep_bind (keep_modify fun _ h => h) fun _ => keep_pure
  refine keep_bind (keep_modify fun _ h => h) fun _ => ?_
  dsimp only
  split
  · exact keep_bind keepOut_cleanInstance fun _ => keep_pure
  have hend : ∀ err : Option Err, Keeps (fun s : St χ A => P s.out s.rt.cur s.met) (match err with
      | some e => do
        M.modify St.cleanInstance
        pure (some e)
      | none => do
        if E.useWarm then
          M.modify (fun s => { s with rt := { s.rt with warmAddress := some s.rt.cur.scAddress, warmInstance := s.rt.instance_ } })
        else pure ()
        pure none) := by
    intro err
    split
    · exact keep_bind keepOut_cleanInstance fun _ => keep_pure
    · refine tri_ite (fun _ => keep_bind (keep_modify fun _ h => h) fun _ => keep_pure) (fun _ => keep_pure)
  split
  · refine tri_ite (fun _ => keep_bind keepOut_verifyContractCode fun r => hend r) (fun _ => keep_bind keep_pure fun r => hend r)
  · refine keep_bind (keep_modify fun _ h => h) fun _ => tri_ite (fun _ => keep_bind keepOut_verifyContractCode fun r => hend r) (fun _ => keep_bind keep_pure fun r => hend r)
theorem keepOut_setWarm (g : UInt64) : Keeps (fun s : St χ A => P s.out s.rt.cur s.met) (setWarm E g) := by
  intro s a t h he
  unfold setWarm at he
  split at he
  · split at he
    · simp at he
    · simp only [Prod.mk.injEq] at he; rw [← he.2]; exact h
  · simp only [Prod.mk.injEq] at he; rw [← he.2]; exact h
theorem keepOut_startInstance (code : Bytes) (g : UInt64) (new : Bool) : Keeps (fun s : St χ A => P s.out s.rt.cur s.met) (startInstance E code g new) := by
  unfold startInstance
  refine tri_get' fun _ => tri_ite (fun _ => keep_bind (keep_modify fun _ h => h) fun _ => keep_pure) (fun _ => ?_)
  refine keep_bind (keepOut_setWarm _) fun w => tri_ite (fun _ => keep_pure) (fun _ => tri_get' fun _ => ?_)
  refine keep_bind (keep_lift fun s h => ?_) fun u => tri_ite (fun _ => keep_pure) (fun _ => keepOut_fromByteCode _ _ _ _)
  unfold fromCompiled
  split
  · exact h
  split
  · exact h
  split
  · exact h
  split
  · exact h
  · exact h
end
theorem fine_startInstance (code : Bytes) (g : UInt64) (new : Bool) : Keeps Fine (startInstance E code g new) :=
  keepOut_startInstance (P := fun o _ _ => o.cur.returnCode = .ok) code g new
theorem startInstance_out {code : Bytes} {g : UInt64} {new : Bool} {s t : St χ A} {r : Option Err}
    (h : startInstance E code g new s = (.ok r, t)) : t.out = s.out :=
  keepOut_startInstance (P := fun o _ _ => o = s.out) code g new s r t rfl h
theorem startInstance_cur {code : Bytes} {g : UInt64} {new : Bool} {s t : St χ A} {r : Option Err}
    (h : startInstance E code g new s = (.ok r, t)) : t.rt.cur = s.rt.cur ∧ t.met = s.met :=
  keepOut_startInstance (P := fun _ c m => c = s.rt.cur ∧ m = s.met) code g new s r t ⟨rfl, rfl⟩ h
theorem fine_deploySteps (hA : FinalApi E) (hk : KeepsInst ex) (hx : FineEx ex) (d : CodeDeployInput) :
    Tri Fine (deploySteps E ex d) EndsFine := by
  unfold deploySteps
  refine keep_bind (tri_get' fun _ => fine_deductInitialGas _ _ _) fun r => ?_
  split
  · exact tri_bind tri_any fun _ => ends_err _
  refine keep_bind (keep_modify fun _ h => h) fun _ => tri_get' fun _ => keep_bind (fine_startInstance _ _ _) fun r => ?_
  split
  · exact ends_err _
  refine tri_bind (fine_callInit hA hk hx) fun r => ?_
  split
  · exact ends_err _
  · exact tri_bind (T := fun _ => Fine) (tri_modify fun s h => h rfl) fun _ => ends_none

/-- An output with another code than Ok was made for an error. -/
def ErrorOutput (E : Env χ A) (o : VMOutput) : Prop := o.returnCode ≠ .ok → ∃ e w, o = (outputOnError E e w).1

theorem errorOutput_onError (e : Err) (w : St χ A) : ErrorOutput E (outputOnError E e w).1 := fun _ => ⟨e, w, rfl⟩
theorem tri_onError {P : St χ A → Prop} (e : Err) : Tri P (M.lift (outputOnError E e)) (fun o _ => ErrorOutput E o) :=
  tri_lift fun s _ => errorOutput_onError e s
theorem getVMOutput_error {s : St χ A} (h : Fine s) : ErrorOutput E (getVMOutput E s).1 := by
  intro hc
  have h1 : (updateGasOnSuccess (readyState s)).2.out.cur.returnCode = .ok := (updateGasOnSuccess_rc _).trans h
  rw [getVMOutput_run] at hc ⊢
  cases he : (updateGasOnSuccess (readyState s)).1 with
  | some e => rw [he] at hc; exact ⟨e, _, rfl⟩
  | none => rw [he] at hc; exact absurd h1 hc
theorem tri_getVMOutput {P : St χ A → Prop} (h : ∀ s, P s → Fine s) :
    Tri P (do let out ← M.lift (getVMOutput E); M.modify St.cleanInstance; pure out) (fun o _ => ErrorOutput E o) :=
  tri_bind (T := fun o _ => ErrorOutput E o) (tri_lift fun s hs => getVMOutput_error (h s hs)) fun _ =>
    tri_bind (T := fun _ _ => ErrorOutput E _) (tri_modify fun _ h => h) fun _ => tri_pure fun _ h => h

theorem performDeployment_error (hA : FinalApi E) (hk : KeepsInst ex) (hx : FineEx ex) (d : CodeDeployInput) :
    Tri Fine (performDeployment E ex d >>= outputOf E) (fun o _ => ErrorOutput E o) := by
  refine tri_bind (T := fun r _ => ∀ o, r = .ok o → ErrorOutput E o) ?_ fun r => ?_
  · unfold performDeployment
    refine tri_bind (fine_deploySteps hA hk hx d) fun r => ?_
    split
    · exact tri_pure fun _ _ o h => by simp at h
    · refine tri_bind (T := fun o _ => ErrorOutput E o) (tri_lift fun s hs => getVMOutput_error (hs rfl)) fun o =>
        tri_bind (T := fun _ _ => ErrorOutput E o) (tri_modify fun _ h => h) fun _ => tri_pure fun s h o' ho => ?_
      simp only [Except.ok.injEq] at ho
      rw [← ho]; exact h
  · unfold outputOf
    split
    · exact tri_pure fun s h => h _ rfl
    · exact tri_onError _

theorem fine_initState (s : St χ A) : Fine (hostInit E s) := rfl
theorem fine_meterInit (i : VMInput) : Keeps (Fine (χ := χ) (A := A)) (meterInit i) := by
  intro s a t h he
  simp only [meterInit, Prod.mk.injEq] at he
  rw [← he.2]; exact h
theorem fine_enterCall (i : CallInput) : Keeps (Fine (χ := χ) (A := A)) (enterCall i) := by
  unfold enterCall
  exact keep_bind (keep_modify fun _ h => h) fun _ => keep_bind (fine_meterInit _) fun _ => keep_bind (keep_modify fun _ h => h) fun _ => keep_pure
theorem fine_extractUpgrade : Keeps (Fine (χ := χ) (A := A)) extractUpgrade := by
  intro s a t h he
  unfold extractUpgrade at he
  split at he <;> · simp only [Prod.mk.injEq] at he; rw [← he.2]; exact h

theorem txBody_error (hA : FinalApi E) (hk : KeepsInst ex) (hx : FineEx ex) (tx : Tx) :
    Tri Fine (txBody E ex tx) (fun o _ => ErrorOutput E o) := by
  cases tx with
  | create i =>
    show Tri Fine (createBody E ex i) _
    unfold createBody
    refine keep_bind (keep_lift fun s h => fine_newAddress _ s h) fun r => ?_
    split
    · exact tri_onError _
    · exact keep_bind (keep_modify fun _ h => h) fun _ => keep_bind (fine_meterInit _) fun _ => keep_bind (keep_modify fun _ h => h) fun _ =>
        performDeployment_error hA hk hx _
  | call i =>
    by_cases hu : i.function = upgradeName
    · simp only [txBody, if_pos hu]
      unfold upgradeBody
      refine keep_bind (fine_enterCall _) fun _ => keep_bind fine_extractUpgrade fun r => ?_
      split
      · exact tri_onError _
      · exact performDeployment_error hA hk hx _
    · simp only [txBody, if_neg hu]
      unfold callBody
      refine keep_bind (fine_enterCall _) fun _ => tri_get' fun _ => ?_
      split
      · exact tri_onError _
      refine keep_bind (keep_lift fun s h => fine_getSCCode s h) fun r => ?_
      split
      · exact tri_onError _
      refine keep_bind (m := deductForExecution _) ?_ fun r => ?_
      · unfold deductForExecution
        exact tri_get' fun _ => tri_ite (fun _ => fine_deductInitialGas _ _ _) (fun _ => fine_deductInitialGas _ _ _)
      split
      · exact tri_onError _
      refine tri_get' fun _ => keep_bind (fine_startInstance _ _ _) fun r => ?_
      split
      · exact tri_onError _
      refine tri_bind (fine_callMethod hA hk hx) fun r => ?_
      split
      · exact tri_onError _
      · exact tri_getVMOutput fun s h => h rfl

/-- A transaction whose output has another code than Ok failed with an error. -/
theorem runTx_error (hA : FinalApi E) (hB : OkBuiltins E) (n : Nat) (tx : Tx) {s : St χ A} {o : VMOutput}
    (h : (runTx E n tx s).1 = some (some o)) (hc : o.returnCode ≠ .ok) : ∃ e w, o = (outputOnError E e w).1 := by
  have hb := txBody_error hA (keepsInst_execN E n) (fineEx_execN hB n) tx
  have ha := runTx_any (E := E) n tx s
  generalize (runTx E n tx s).1 = r at ha h
  generalize (runTx E n tx s).2 = t at ha
  subst h
  cases ha with
  | ok _ t ho => exact hb _ _ _ (fine_initState s) ho hc
  | reset _ t ho _ => exact hb _ _ _ (fine_initState s) ho hc

end Arwen
