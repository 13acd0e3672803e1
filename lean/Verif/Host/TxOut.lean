import Verif.Host.Rel
/-
What a transaction reports: the output made for an error, or the active output after the final gas bookkeeping.
-/
namespace Arwen
variable {χ A : Type} {E : Env χ A} {ex : Executor χ A}

/-- The output `o` and the final state `t` of the body of a transaction whose steps led to state `u`. -/
inductive Ending (E : Env χ A) (u : St χ A) : VMOutput → St χ A → Prop
  /-- an error -/
  | err (e : Err) : Ending E u (outputOnError E e u).1 (outputOnError E e u).2
  /-- no error: the final gas bookkeeping, then the instance is cleaned -/
  | ok : Ending E u (getVMOutput E u).1 (getVMOutput E u).2.cleanInstance

theorem ending_outputOnError {e : Err} {s t : St χ A} {o : VMOutput} (h : M.lift (outputOnError E e) s = (.ok o, t)) :
    Ending E s o t := by
  simp only [M.lift, Prod.mk.injEq, Res.ok.injEq] at h
  rw [← h.1, ← h.2]; exact .err e

theorem performDeployment_ending (hk : KeepsInst ex) (d : CodeDeployInput) (s t : St χ A) (o : VMOutput) (hfr : Fresh E s)
    (h : (performDeployment E ex d >>= outputOf E) s = (.ok o, t)) : ∃ u, Run (StepT E ex) s u ∧ Ending E u o t := by
  rcases bind_ok h with ⟨r, w, h1, h⟩ | ⟨_, h⟩ | ⟨_, h⟩
  · unfold performDeployment at h1
    rcases bind_ok h1 with ⟨r', u, h2, h3⟩ | ⟨_, h3⟩ | ⟨_, h3⟩
    · have hr := (sim_deployTop (E := E) hk d s hfr).ok h2
      cases r' with
      | some e =>
        simp only [M.pure_eq, M.pure, Prod.mk.injEq, Res.ok.injEq] at h3
        obtain ⟨rfl, rfl⟩ := h3
        exact ⟨u, hr, ending_outputOnError h⟩
      | none =>
        dsimp only at h3
        rw [lift_bind, modify_bind] at h3
        simp only [M.pure_eq, M.pure, Prod.mk.injEq, Res.ok.injEq] at h3
        obtain ⟨rfl, rfl⟩ := h3
        simp only [outputOf, M.pure_eq, M.pure, Prod.mk.injEq, Res.ok.injEq] at h
        rw [← h.1, ← h.2]
        exact ⟨u, hr, .ok⟩
    · simp at h3
    · simp at h3
  · simp at h
  · simp at h

theorem callRest_ending (hk : KeepsInst ex) (g : UInt64) (s t : St χ A) (o : VMOutput) (hfr : Fresh E s)
    (h : callRest E ex g s = (.ok o, t)) : ∃ u, Run (StepB E ex) s u ∧ Ending E u o t := by
  unfold callRest at h
  rw [get_bind] at h
  cases hg : checkGetCodeGas s g with
  | some e => rw [hg] at h; exact ⟨s, .refl s, ending_outputOnError h⟩
  | none =>
    rw [hg] at h
    rcases bind_ok h with ⟨r, u, h1, h⟩ | ⟨_, h⟩ | ⟨_, h⟩
    · have r1 := (sim_getSCCode (E := E) (ex := ex) s).ok h1
      have hfr : Fresh E u := by
        simp only [M.lift, Prod.mk.injEq] at h1
        rw [← h1.2]
        exact hfr.of_eq (by rw [getSCCode_rt]) (by rw [getSCCode_rt])
      cases r with
      | error e => exact ⟨u, r1, ending_outputOnError h⟩
      | ok code =>
        rcases bind_ok h with ⟨r, v, h2, h⟩ | ⟨_, h⟩ | ⟨_, h⟩
        · have r2 := r1.trans ((sim_deductForExecution (E := E) (ex := ex) code u).ok h2)
          have hfr := hfr.exec h2
          cases r with
          | some e => exact ⟨v, r2, ending_outputOnError h⟩
          | none =>
            dsimp only at h
            rw [get_bind] at h
            rcases bind_ok h with ⟨r, w, h3, h⟩ | ⟨_, h⟩ | ⟨_, h⟩
            · have r3 := r2.trans ((sim_startInstance (E := E) (ex := ex) _ _ _ v hfr (.inr (loaded_code h1 h2))).ok h3)
              cases r with
              | some e => exact ⟨w, r3, ending_outputOnError h⟩
              | none =>
                rcases bind_ok h with ⟨r, x, h4, h⟩ | ⟨_, h⟩ | ⟨_, h⟩
                · have r4 := r3.trans ((sim_callMethod (E := E) hk w).ok h4)
                  cases r with
                  | some e => exact ⟨x, r4, ending_outputOnError h⟩
                  | none =>
                    dsimp only at h
                    rw [lift_bind, modify_bind] at h
                    simp only [M.pure_eq, M.pure, Prod.mk.injEq, Res.ok.injEq] at h
                    rw [← h.1, ← h.2]
                    exact ⟨x, r4, .ok⟩
                · simp at h
                · simp at h
            · simp at h
            · simp at h
        · simp at h
        · simp at h
    · simp at h
    · simp at h

/-- Every transaction that returns ran some steps and then ended. -/
theorem txBody_ending (hk : KeepsInst ex) (tx : Tx) {s t : St χ A} {o : VMOutput} (hr : AtRest E s)
    (h : txBody E ex tx (hostInit E s) = (.ok o, t)) : ∃ u, Run (StepT E ex) (txStart E tx s) u ∧ Ending E u o t := by
  have hf := fresh_txStart tx hr
  cases tx with
  | call i =>
    by_cases hu : i.function = upgradeName
    · simp only [txBody, if_pos hu, upgradeBody_run] at h
      unfold upgradeRest at h
      rcases bind_ok h with ⟨r, u, h1, h⟩ | ⟨_, h⟩ | ⟨_, h⟩
      · have r1 := (sim_extractUpgrade (E := E) (ex := ex) _).toT.ok h1
        have hfr : Fresh E u := by
          refine hf.of_eq ?_ ?_ <;>
          · simp only [extractUpgrade] at h1
            split at h1 <;> · simp only [Prod.mk.injEq] at h1; rw [← h1.2]; rfl
        cases r with
        | none => exact ⟨u, r1, ending_outputOnError h⟩
        | some p =>
          obtain ⟨v, r2, h2⟩ := performDeployment_ending hk _ u t o hfr h
          exact ⟨v, r1.trans r2, h2⟩
      · simp at h
      · simp at h
    · simp only [txBody, if_neg hu, callBody_run] at h
      obtain ⟨u, h1, h2⟩ := callRest_ending hk _ _ t o hf h
      exact ⟨u, h1.toT, h2⟩
  | create i =>
    simp only [txBody, createBody_run] at h
    cases hn : (newAddress E i.vm.caller (hostInit E s)).1 with
    | ok a =>
      have e1 : txStart E (.create i) s = enterCreateState i a (newAddress E i.vm.caller (hostInit E s)).2 := by
        simp only [txStart, hn]
      rw [hn] at h
      rw [e1] at hf ⊢
      exact performDeployment_ending hk _ _ t o hf h
    | error e =>
      have e1 : txStart E (.create i) s = hostInit E s := by simp only [txStart, hn]
      rw [hn] at h
      simp only [Prod.mk.injEq, Res.ok.injEq] at h
      rw [e1, ← h.1, ← h.2]
      exact ⟨_, run_newAddress _ _ |>.mono (fun _ _ h => .b _ _ (.a _ _ h)), .err e⟩

/-- The output of a transaction, with the state its steps led to. -/
theorem runTx_ending (n : Nat) (tx : Tx) {s : St χ A} {o : VMOutput} (hr : AtRest E s)
    (h : (runTx E n tx s).1 = some (some o)) :
    ∃ u t, Run (StepT E (execN E n)) (txStart E tx s) u ∧ Ending E u o t := by
  have ha := runTx_any (E := E) n tx s
  generalize (runTx E n tx s).1 = r at ha h
  generalize (runTx E n tx s).2 = t at ha
  subst h
  cases ha with
  | ok _ t hb => obtain ⟨u, h1, h2⟩ := txBody_ending (keepsInst_execN E n) tx hr hb; exact ⟨u, t, h1, h2⟩
  | reset _ t hb _ => obtain ⟨u, h1, h2⟩ := txBody_ending (keepsInst_execN E n) tx hr hb; exact ⟨u, t, h1, h2⟩

/-- A call that is not an upgrade takes no steps reserved to transactions. -/
theorem runTx_ending_call (n : Nat) (i : CallInput) (hu : i.function ≠ upgradeName) {s : St χ A} {o : VMOutput} (hr : AtRest E s)
    (h : (runTx E n (.call i) s).1 = some (some o)) :
    ∃ u t, Run (StepB E (execN E n)) (txStart E (.call i) s) u ∧ Ending E u o t := by
  have ha := runTx_any (E := E) n (.call i) s
  generalize (runTx E n (.call i) s).1 = r at ha h
  generalize (runTx E n (.call i) s).2 = t at ha
  subst h
  have hf := fresh_txStart (.call i) hr
  cases ha with
  | ok _ t hb =>
    simp only [txBody, if_neg hu, callBody_run] at hb
    obtain ⟨u, h1, h2⟩ := callRest_ending (keepsInst_execN E n) _ _ t o hf hb; exact ⟨u, t, h1, h2⟩
  | reset _ t hb _ =>
    simp only [txBody, if_neg hu, callBody_run] at hb
    obtain ⟨u, h1, h2⟩ := callRest_ending (keepsInst_execN E n) _ _ t o hf hb; exact ⟨u, t, h1, h2⟩

/-- an output reported without an error is the active output -/
theorem Ending.cases {u t : St χ A} {o : VMOutput} (h : Ending E u o t) :
    (∃ e w, o = (outputOnError E e w).1) ∨
    (o = (getVMOutput E u).2.out.cur ∧ (updateGasOnSuccess (readyState u)).1 = none ∧
      (getVMOutput E u).2 = (updateGasOnSuccess (readyState u)).2 ∧ t = (getVMOutput E u).2.cleanInstance) := by
  cases h with
  | err e => exact .inl ⟨e, u, rfl⟩
  | ok =>
    cases hc : (updateGasOnSuccess (readyState u)).1 with
    | some e => refine .inl ⟨e, (updateGasOnSuccess (readyState u)).2, ?_⟩; rw [getVMOutput_run, hc]
    | none =>
      refine .inr ⟨?_, rfl, ?_, rfl⟩
      · rw [getVMOutput_run, hc]
      · rw [getVMOutput_run, hc]

/-- the output made for an error -/
theorem onError_output (e : Err) (w : St χ A) : (outputOnError E e w).1.returnCode ≠ .ok ∧
    (outputOnError E e w).1.accounts = AMap.empty ∧ (outputOnError E e w).1.logs = [] ∧
    (outputOnError E e w).1.returnData = [] ∧ (outputOnError E e w).1.gasRemaining = 0 ∧
    (outputOnError E e w).1.gasRefund = 0 := ⟨resolveReturnCode_ne e, rfl, rfl, rfl, rfl, rfl⟩

section
variable {J : St χ A → Prop} {Q : VMOutput → VMOutput → Prop}

/-- A transaction's output is an error output or related to the initial one. -/
theorem OutRel.tx (h : OutRel E J Q) (hJt : TopOk E J)
    (htop : ∀ (s : St χ A) d, J s → Vetted E d.code → Q s.out.cur (s.out.deployCode d).cur) (n : Nat) (tx : Tx) {s : St χ A} {o : VMOutput} (hr : AtRest E s) (hJ : J (txStart E tx s))
    (ho : (runTx E n tx s).1 = some (some o)) :
    (∃ e w, o = (outputOnError E e w).1) ∨ Q (txStart E tx s).out.cur o := by
  obtain ⟨u, t, h1, h2⟩ := runTx_ending n tx hr ho
  rcases h2.cases with h2 | ⟨h2, _, _, _⟩
  · exact .inl h2
  · refine .inr ?_
    have h3 := h.binary.runT (fun s d hv hJ => ⟨hJt s d hv hJ, htop s d hJ hv⟩) h1 hJ
    rw [h2]
    exact h.trans _ _ _ h3.2 (h.finalize u h3.1)
end

/-! ### The output when a transaction starts -/

/-- an account of which at most the nonce and the value brought in are known -/
def OutAcc.Started (acc : OutAcc) : Prop := ∃ n d, acc = { nonce := n, balanceDelta := d }

/-- nothing but accounts, of which at most the nonce and the value brought in are known -/
structure VMOutput.Started (o : VMOutput) : Prop where
  rest : o = { accounts := o.accounts }
  accounts : ∀ b acc, o.accounts.get? b = some acc → acc.Started

theorem VMOutput.Started.put {o : VMOutput} (h : o.Started) (a : Addr) {acc : OutAcc} (ha : acc.Started) :
    VMOutput.Started { o with accounts := o.accounts.insert a acc } := by
  refine ⟨?_, fun b x hx => ?_⟩
  · conv => lhs; rw [h.rest]
  · rw [AMap.get?_insert] at hx
    split at hx
    · rw [← Option.some.inj hx]; exact ha
    · exact h.accounts b x hx

theorem started_getAcc {c : OutCtx} (h : c.cur.Started) (a : Addr) : (c.getAcc a).1.Started ∧ (c.getAcc a).2.2.cur.Started := by
  unfold OutCtx.getAcc
  split
  · rename_i acc hg; exact ⟨h.accounts a acc hg, h⟩
  · exact ⟨⟨0, 0, rfl⟩, h.put a ⟨0, 0, rfl⟩⟩

theorem started_getNonce {s : St χ A} (h : s.out.cur.Started) (a : Addr) : (getNonce E a s).2.out.cur.Started := by
  obtain ⟨h1, h2⟩ := started_getAcc h a
  unfold getNonce
  generalize s.out.getAcc a = q at h1 h2
  obtain ⟨acc, isNew, out'⟩ := q
  dsimp only at h1 h2 ⊢
  split
  · exact h2
  · split
    · exact h2
    · exact h2
    · obtain ⟨n, d, rfl⟩ := h1
      exact h2.put a ⟨_, d, rfl⟩

theorem started_newAddress {s : St χ A} (h : s.out.cur.Started) (a : Addr) : (newAddress E a s).2.out.cur.Started := by
  have := started_getNonce (E := E) h a
  unfold newAddress
  generalize getNonce E a s = q at this
  obtain ⟨r, t⟩ := q
  cases r <;> exact this

theorem started_addTxValue {c : OutCtx} (h : c.cur.Started) (a : Addr) (v : Int) : (c.addTxValue a v).cur.Started := by
  obtain ⟨h1, _⟩ := started_getAcc h a
  unfold OutCtx.addTxValue OutCtx.modAcc
  generalize (c.getAcc a).1 = acc at h1
  obtain ⟨n, d, rfl⟩ := h1
  exact h.put a ⟨n, d + v, rfl⟩

theorem txStart_started (tx : Tx) (s : St χ A) : (txStart E tx s).out.cur.Started := by
  have h0 : (hostInit E s).out.cur.Started := ⟨rfl, fun b acc h => by simp [hostInit, OutCtx.initState, AMap.get?_empty] at h⟩
  cases tx with
  | call i => exact started_addTxValue h0 _ _
  | create i =>
    unfold txStart
    dsimp only
    split
    · exact h0
    · exact started_addTxValue (started_newAddress h0 _) _ _

theorem newAddress_stack (a : Addr) (s : St χ A) : (newAddress E a s).2.out.stack = s.out.stack := by
  have : (getNonce E a s).2.out.stack = s.out.stack := by
    have h1 : (s.out.getAcc a).2.2.stack = s.out.stack := by unfold OutCtx.getAcc; split <;> rfl
    unfold getNonce
    generalize s.out.getAcc a = q at h1
    dsimp only
    repeat' split
    all_goals exact h1
  unfold newAddress
  dsimp only
  split <;> exact this

theorem addTxValue_stack (c : OutCtx) (a : Addr) (v : Int) : (c.addTxValue a v).stack = c.stack := by
  rfl

theorem txStart_stack (tx : Tx) (s : St χ A) : (txStart E tx s).out.stack = [] := by
  cases tx with
  | call i => exact addTxValue_stack _ _ _
  | create i =>
    unfold txStart
    dsimp only
    split
    · rfl
    · exact (addTxValue_stack _ _ _).trans (newAddress_stack _ _)

theorem newAddress_rest (a : Addr) (s : St χ A) : ∃ o, (newAddress E a s).2 = { s with out := o } := by
  have : ∃ o, (getNonce E a s).2 = { s with out := o } := by
    unfold getNonce
    generalize s.out.getAcc a = q
    dsimp only
    repeat' split
    all_goals exact ⟨_, rfl⟩
  unfold newAddress
  dsimp only
  split <;> exact this

end Arwen
