import Verif.Spec.Independent
import Verif.Props.Depth
import Verif.Props.StorageLemmas
import Verif.Host.Blind
import Verif.Host.Gas
/-
C46: the result of a transaction does not depend on the transactions the host processed before.
-/
namespace Arwen.Props
open Arwen Arwen.Spec
variable {χ A : Type} {E : Env χ A}

/-- A host that has finished its transactions: no instance is current, kept or alive, storage is protected. (Snapshots may be left on the
stack of the blockchain context: a panic leaves them, and nothing ever removes them.) -/
structure Idle (E : Env χ A) (s : St χ A) : Prop extends Quiet E s where
  prot : s.sto.protect = true
  noWarm : s.rt.warmAddress = Option.none

theorem idle_fresh (w : χ) (g : GasSchedule) : Idle E (freshHost w g : St χ A) :=
  ⟨⟨⟨.inl rfl, rfl, .inl rfl⟩, rfl⟩, rfl, rfl⟩

/-! ### What one transaction leaves -/

theorem cleanInstance_more (s : St χ A) : s.cleanInstance.rt.warmAddress = s.rt.warmAddress ∧ s.cleanInstance.bcStack = s.bcStack ∧
    s.cleanInstance.sto = s.sto ∧ s.cleanInstance.met = s.met := by
  unfold St.cleanInstance
  split
  · exact ⟨rfl, rfl, rfl, rfl⟩
  · split <;> exact ⟨rfl, rfl, rfl, rfl⟩

theorem popInstance_warmAddress (s : St χ A) : s.popInstance.rt.warmAddress = s.rt.warmAddress := by
  unfold St.popInstance
  split
  · rfl
  · dsimp only
    split
    · rfl
    · exact (cleanInstance_more _).1

theorem rtPopSet_warmAddress (s : St χ A) : s.rtPopSet.rt.warmAddress = s.rt.warmAddress := by
  unfold St.rtPopSet
  split
  · rfl
  · exact popInstance_warmAddress _

theorem warmAddress_unary (hw : E.useWarm = false) : Unary E (fun s => s.rt.warmAddress = none) where
  delete _ _ _ _ _ _ _ _ h := h
  step := by
    intro s t h hI
    cases h with
    | a _ h =>
      cases h with
      | dest _ i r h _ => exact (halt_dest h).elim
      | same _ i r h _ => exact (halt_same h).elim
      | undo _ i r a ci h => exact (halt_dest h).elim
      | _ => exact hI
    | warmStart i g h1 => rw [hw] at h1; simp at h1
    | setWarm h1 => rw [hw] at h1; simp at h1
    | clean _ => exact (cleanInstance_more s).1.trans hI
    | failed c new m g h1 h2 h3 => exact (cleanInstance_more (newInstance m g new s)).1.trans hI
    | finalize => obtain ⟨o, m, h⟩ := getVMOutput_only (E := E) s; rw [h]; exact hI
    | _ => exact hI
  stepH := by intro s t h hI; rw [h.rt.1]; exact hI
  push := fun s hI => hI
  bcPopSet := fun s hI => by rw [bcPopSet_rt]; exact hI
  bcPopDiscard := fun s hI => hI
  onError := fun e s hI => by obtain ⟨o, m, h⟩ := outputOnError_only (E := E) s e; rw [h]; exact hI
  enterDest := fun i s hI => hI
  enterSame := fun i s hI => hI
  popDest := fun b s hI => by
    unfold popDest
    rw [rtPopSet_warmAddress]
    cases b <;> exact hI
  popSameFail := fun s hI => by
    unfold popSameFail
    rw [bcPopSet_rt, rtPopSet_warmAddress]
    exact hI
  popSameOk := fun s hI => (rtPopSet_warmAddress _).trans hI
  restore := fun g s hI => by obtain ⟨r, ins, h, _⟩ := restoreGas_only g s; rw [h]; exact hI

theorem newAddress_only (a : Addr) (s : St χ A) : ∃ o, (newAddress E a s).2 = { s with out := o } := by
  have : ∃ o, (getNonce E a s).2 = { s with out := o } := by
    unfold getNonce
    dsimp only
    repeat' split
    all_goals exact ⟨_, rfl⟩
  obtain ⟨o, h⟩ := this
  unfold newAddress
  dsimp only
  split <;> exact ⟨_, h⟩

/-- what the start of a transaction keeps of the host -/
theorem txStart_keeps (tx : Tx) (s : St χ A) : (txStart E tx s).bcStack = s.bcStack ∧ (txStart E tx s).sto.protect = s.sto.protect ∧
    (txStart E tx s).rt.warmAddress = s.rt.warmAddress ∧ (txStart E tx s).met.sched = s.met.sched ∧ (txStart E tx s).world = s.world := by
  cases tx with
  | call i => exact ⟨rfl, rfl, rfl, rfl, rfl⟩
  | create i =>
    unfold txStart
    dsimp only
    split
    · exact ⟨rfl, rfl, rfl, rfl, rfl⟩
    · obtain ⟨o, h⟩ := newAddress_only (E := E) i.vm.caller (hostInit E s)
      rw [h]
      exact ⟨rfl, rfl, rfl, rfl, rfl⟩

theorem hostClean_more (s : St χ A) : (hostClean s).rt.warmAddress = s.rt.warmAddress ∧ (hostClean s).bcStack = s.bcStack ∧
    (hostClean s).sto = s.sto ∧ (hostClean s).met = s.met := by
  unfold hostClean
  split
  · exact ⟨rfl, rfl, rfl, rfl⟩
  · exact cleanInstance_more s

theorem popSet_sched (c : MeterCtx) : c.popSet.sched = c.sched := by unfold MeterCtx.popSet; split <;> rfl
theorem popMerge_sched (c : MeterCtx) : c.popMerge.sched = c.sched := by unfold MeterCtx.popMerge; split <;> rfl

theorem sched_unary (g : GasSchedule) : Unary E (fun s => s.met.sched = g) where
  delete _ _ _ _ _ _ _ _ h := h
  step := by
    intro s t h hI
    cases h with
    | a _ h =>
      cases h with
      | dest _ i r h _ => exact (halt_dest h).elim
      | same _ i r h _ => exact (halt_same h).elim
      | undo _ i r a ci h => exact (halt_dest h).elim
      | _ => exact hI
    | clean _ => exact (congrArg MeterCtx.sched (cleanInstance_more s).2.2.2).trans hI
    | failed c new m g h1 h2 h3 => exact (congrArg MeterCtx.sched (cleanInstance_more (newInstance m g new s)).2.2.2).trans hI
    | finalize => obtain ⟨o, m, h⟩ := getVMOutput_only (E := E) s; rw [h]; exact hI
    | _ => exact hI
  stepH := by intro s t h hI; cases h <;> exact hI
  push := fun s hI => hI
  bcPopSet := fun s hI => by rw [(bcPopSet_rest s).2.1]; exact hI
  bcPopDiscard := fun s hI => hI
  onError := fun e s hI => by obtain ⟨o, m, h⟩ := outputOnError_only (E := E) s e; rw [h]; exact hI
  enterDest := fun i s hI => hI
  enterSame := fun i s hI => hI
  popDest := fun b s hI => by
    unfold popDest
    rw [rtPopSet_met]
    cases b
    · exact (popSet_sched _).trans hI
    · exact (popMerge_sched _).trans hI
  popSameFail := fun s hI => by
    unfold popSameFail
    rw [(bcPopSet_rest _).2.1, rtPopSet_met]
    exact (popSet_sched _).trans hI
  popSameOk := fun s hI => by
    unfold popSameOk
    rw [rtPopSet_met]
    exact (popMerge_sched _).trans hI
  restore := fun g s hI => by obtain ⟨r, ins, h, _⟩ := restoreGas_only g s; rw [h]; exact hI

/-- A transaction leaves the host as it found it, also after a panic: idle, with the same gas schedule. -/
theorem idle_kept (hw : E.useWarm = false) (n : Nat) (tx : Tx) (s : St χ A) (hi : Idle E s) (h : (runTx E n tx s).1 ≠ none) :
    Idle E (runTx E n tx s).2 ∧ (runTx E n tx s).2.met.sched = s.met.sched := by
  have hq := c22_all_released_partial E hw n tx s hi.toQuiet h
  have h1 := runTx_any (E := E) n tx s
  generalize (runTx E n tx s).2 = v at h1 hq ⊢
  generalize (runTx E n tx s).1 = q at h1 h
  obtain ⟨k1, k2, k3, k4, -⟩ := txStart_keeps (E := E) tx s
  have key : ∀ (r : Res VMOutput) (t : St χ A), txBody E (execN E n) tx (hostInit E s) = (r, t) → r ≠ .oof →
      t.sto.protect = true ∧ t.rt.warmAddress = none ∧ t.met.sched = s.met.sched := by
    intro r t he hr
    refine ⟨?_, ?_, ?_⟩
    · exact ((protected_unary (E := E) (txStart E tx s).world).txBody (fun _ _ _ h => h) n tx hi.toAtRest he hr
        ⟨k2.trans hi.prot, .start⟩).1
    · exact (warmAddress_unary hw).txBody (fun _ _ _ h => h) n tx hi.toAtRest he hr (k3.trans hi.noWarm)
    · exact (sched_unary s.met.sched).txBody (fun _ _ _ h => h) n tx hi.toAtRest he hr k4
  have clean : ∀ t : St χ A, t.sto.protect = true ∧ t.rt.warmAddress = none ∧ t.met.sched = s.met.sched → Quiet E (hostClean t) →
      Idle E (hostClean t) ∧ (hostClean t).met.sched = s.met.sched := by
    intro t ⟨a2, a3, a5⟩ hq
    obtain ⟨b1, b2, b3, b4⟩ := hostClean_more t
    exact ⟨⟨hq, by rw [b3]; exact a2, b1.trans a3⟩, by rw [b4]; exact a5⟩
  cases h1 with
  | ok o t h5 => exact clean t (key _ t h5 (by simp)) hq
  | panic t h5 => exact clean t (key _ t h5 (by simp)) hq
  | oof t h5 => exact absurd rfl h
  | reset o t h5 h6 =>
    obtain ⟨a2, a3, a5⟩ := key _ t h5 (by simp)
    obtain ⟨b1, b2, b3, b4⟩ := hostClean_more t
    have e : ∀ u : St χ A, u.resetWarm.sto = u.sto ∧ u.resetWarm.met = u.met ∧
        (u.rt.warmAddress = none → u.resetWarm.rt.warmAddress = none) := by
      intro u; unfold St.resetWarm; split
      · exact ⟨rfl, rfl, id⟩
      · exact ⟨rfl, rfl, fun _ => rfl⟩
    obtain ⟨c2, c3, c4⟩ := e (hostClean t)
    exact ⟨⟨hq, by rw [c2, b3]; exact a2, c4 (b1.trans a3)⟩, by rw [c3, b4]; exact a5⟩

/-! ### The start of a transaction -/

/-- a fresh host after `InitState`, but for the address of the storage context and the size of the code that was loaded last -/
def likeFresh (E : Env χ A) (s : St χ A) : St χ A :=
  { hostInit E (freshHost s.world s.met.sched) with
    sto := { (freshHost s.world s.met.sched : St χ A).sto with addr := s.sto.addr }
    rt := { (freshHost s.world s.met.sched : St χ A).rt with codeSize := s.rt.codeSize } }

/-- After `InitState` an idle host differs from a fresh one only in snapshots that are left, in the address of the storage context,
which is set before it is used, and in the size of the code of the contract that was loaded last. -/
theorem hostInit_idle (hw : E.useWarm = false) {s : St χ A} (hi : Idle E s) : hostInit E s = deep s.bcStack (likeFresh E s) := by
  have h1 : s.rt.instance_ = none := hi.inst.resolve_right (by simp [hw])
  have h2 : s.rt.warmInstance = none := hi.warm.resolve_right (by simp [hw])
  have h3 := hi.stack
  have h4 : s.idle = true := by
    unfold St.idle
    simp only [h1, h2, h3, Option.isNone_none, List.isEmpty_nil, Bool.and_self, Bool.true_and, List.all_eq_true, List.mem_range]
    exact (alive_iff s).mp hi.none
  have h6 := hi.prot
  have h7 := hi.noWarm
  obtain ⟨w, fl, big, ⟨sa, ss, sp⟩, out, ⟨sc, mc, ms⟩, ⟨rc, rs, cs, vc, ri, ris, wa, wi⟩, bc, ins, ni⟩ := s
  simp only at h1 h2 h3 h6 h7
  subst h1 h2 h3 h6 h7
  generalize hx : ({ world := w, flags := fl, big := big, sto := ⟨sa, ss, true⟩, out := out, met := ⟨sc, mc, ms⟩,
                     rt := ⟨rc, rs, cs, vc, none, [], none, none⟩, bcStack := bc, insts := ins, nextInst := ni } : St χ A) = s at h4 ⊢
  have e1 : (hostInit E s).insts = fun _ => .blank := if_pos h4
  have e2 : (hostInit E s).nextInst = 0 := if_pos h4
  have e3 : hostInit E s = { hostInit E s with insts := fun _ => .blank, nextInst := 0 } := by
    generalize hostInit E s = y at e1 e2
    obtain ⟨_, _, _, _, _, _, _, _, yi, yn⟩ := y
    simp only at e1 e2
    rw [e1, e2]
  rw [e3, ← hx]
  rfl

/-- the same state, with another size of the code that was loaded last -/
def resized (c : UInt64) (s : St χ A) : St χ A := { s with rt := { s.rt with codeSize := c } }

theorem enterCall_like (s : St χ A) (i : CallInput) : enterCallState i (likeFresh E s) =
    resized s.rt.codeSize (enterCallState i (hostInit E (freshHost s.world s.met.sched))) := rfl

theorem outputOnError_resized (e : Err) (c : UInt64) (s : St χ A) : outputOnError E e (resized c s) =
    ((outputOnError E e s).1, resized c (outputOnError E e s).2) := rfl

theorem getSCCode_resized (c : UInt64) (s : St χ A) : (getSCCode E (resized c s)).1 = (getSCCode E s).1 ∧
    (getSCCode E (resized c s)).2 = match (getSCCode E s).1 with
      | .ok _ => (getSCCode E s).2
      | .error _ => resized c (getSCCode E s).2 := by
  have h : getCode E s.rt.cur.scAddress (resized c s) = ((getCode E s.rt.cur.scAddress s).1, resized c (getCode E s.rt.cur.scAddress s).2) := by
    unfold getCode
    dsimp only [resized]
    split
    · rfl
    · cases E.hook.userAccount s.world s.rt.cur.scAddress with
      | error e => rfl
      | ok o =>
        cases o with
        | none => rfl
        | some ua => dsimp only; split <;> rfl
  have h' : getCode E (resized c s).rt.cur.scAddress (resized c s) = _ := h
  unfold getSCCode
  rw [h']
  generalize getCode E s.rt.cur.scAddress s = q
  obtain ⟨r, t⟩ := q
  cases r <;> exact ⟨rfl, rfl⟩

/-- The code of a top-level call does not depend on that size: it is set when the contract's own code is loaded. -/
theorem callRest_resized (ex : Executor χ A) (g c : UInt64) (s : St χ A) :
    ∃ d, callRest E ex g (resized c s) = ((callRest E ex g s).1, resized d (callRest E ex g s).2) := by
  have hrefl : ∀ t : St χ A, resized t.rt.codeSize t = t := fun _ => rfl
  unfold callRest
  rw [get_bind, get_bind]
  rw [show checkGetCodeGas (resized c s) g = checkGetCodeGas s g from rfl]
  cases checkGetCodeGas s g with
  | some e => exact ⟨c, rfl⟩
  | none =>
    dsimp only
    rw [lift_bind, lift_bind, (getSCCode_resized c s).1, (getSCCode_resized c s).2]
    cases hr : (getSCCode E s).1 with
    | error e => exact ⟨c, rfl⟩
    | ok code =>
      dsimp only
      generalize (_ : M χ A VMOutput) = m
      exact ⟨_, by rw [hrefl]⟩

/-- what a user sees is decided by the body of the entry point -/
theorem seen_body (n : Nat) (tx : Tx) (s : St χ A) : seen (runTx E n tx s) =
    (runResult (txBody E (execN E n) tx (hostInit E s)).1, (txBody E (execN E n) tx (hostInit E s)).2.world) := by
  have e1 : ∀ u : St χ A, (hostClean u).world = u.world := by
    intro u
    unfold hostClean St.cleanInstance
    repeat' split
    all_goals rfl
  have e2 : ∀ u : St χ A, u.resetWarm.world = u.world := by
    intro u
    unfold St.resetWarm
    split <;> rfl
  have h := runTx_any (E := E) n tx s
  unfold seen
  generalize (runTx E n tx s).1 = q at h ⊢
  generalize (runTx E n tx s).2 = v at h ⊢
  cases h with
  | ok o t h => rw [h, e1]; rfl
  | reset o t h _ => rw [h, e2, e1]; rfl
  | panic t h => rw [h, e1]; rfl
  | oof t h => rw [h]; rfl

/-- on an idle host the snapshots that are left do not matter -/
theorem body_idle [BlindApi E] (hw : E.useWarm = false) (n : Nat) (tx : Tx) {s : St χ A} (hi : Idle E s) :
    txBody E (execN E n) tx (hostInit E s) = ((txBody E (execN E n) tx (likeFresh E s)).1, deep s.bcStack (txBody E (execN E n) tx (likeFresh E s)).2) := by
  rw [hostInit_idle hw hi]
  exact blind_txBody n tx _ _ (Nat.zero_le _)

theorem seen_idle [BlindApi E] (hw : E.useWarm = false) (n : Nat) (tx : Tx) {s : St χ A} (hi : Idle E s) : seen (runTx E n tx s) =
    (runResult (txBody E (execN E n) tx (likeFresh E s)).1, (txBody E (execN E n) tx (likeFresh E s)).2.world) := by
  rw [seen_body, body_idle hw n tx hi]
  rfl

/-- the same state, with another address in the storage context -/
def restored (a : Addr) (s : St χ A) : St χ A := { s with sto := { s.sto with addr := a } }

theorem newAddress_restored (c a : Addr) (s : St χ A) : newAddress E c (restored a s) =
    ((newAddress E c s).1, restored a (newAddress E c s).2) := by
  have h : getNonce E c (restored a s) = ((getNonce E c s).1, restored a (getNonce E c s).2) := by
    rw [getNonce_parts, getNonce_parts]
    rfl
  unfold newAddress
  rw [h]
  generalize getNonce E c s = q
  obtain ⟨r, t⟩ := q
  cases r <;> rfl

/-! ### The property -/

/-- C46 for calls: on a host that has finished its transactions, a call gives the same result as on a fresh host over the same
node, and leaves the same node. -/
theorem c46_call_partial (E : Env χ A) [BlindApi E] (hw : E.useWarm = false) (n : Nat) (i : CallInput) (hf : i.function ≠ upgradeName)
    (s : St χ A) (hi : Idle E s) :
    seen (runTx E n (.call i) s) = seen (runTx E n (.call i) (freshHost s.world s.met.sched)) := by
  rw [seen_idle hw n _ hi, seen_body]
  simp only [txBody, if_neg hf, callBody_run]
  have hin : enterCallInput i (likeFresh E s) = enterCallInput i (hostInit E (freshHost s.world s.met.sched)) := rfl
  rw [hin, enterCall_like]
  obtain ⟨d, hd⟩ := callRest_resized (E := E) (execN E n) (enterCallInput i (hostInit E (freshHost s.world s.met.sched))).gasProvided
    s.rt.codeSize (enterCallState i (hostInit E (freshHost s.world s.met.sched)))
  rw [hd]
  rfl

/-- C46 for all transactions: nothing is left of earlier transactions but the size of the code that was loaded last. Missing for
the full property: this size matters to deployments, see `c46_neg`. -/
theorem c46_deploy_partial (E : Env χ A) [BlindApi E] (hw : E.useWarm = false) (n : Nat) (tx : Tx) (s : St χ A) (hi : Idle E s) :
    seen (runTx E n tx s) = seen (runTx E n tx (resized s.rt.codeSize (freshHost s.world s.met.sched))) := by
  have hj : Idle E (resized s.rt.codeSize (freshHost s.world s.met.sched) : St χ A) :=
    ⟨⟨⟨.inl rfl, rfl, .inl rfl⟩, rfl⟩, rfl, rfl⟩
  rw [seen_idle hw n tx hi, seen_idle hw n tx hj]
  cases tx with
  | call i =>
    simp only [txBody]
    split
    · simp only [upgradeBody_run, enterCall_like]
      rfl
    · simp only [callBody_run, enterCall_like]
      rfl
  | create i =>
    simp only [txBody, createBody_run]
    have e3 : likeFresh E s = restored s.sto.addr (likeFresh E (resized s.rt.codeSize (freshHost s.world s.met.sched))) := rfl
    rw [e3, newAddress_restored]
    generalize newAddress E i.vm.caller (likeFresh E (resized s.rt.codeSize (freshHost s.world s.met.sched))) = q
    obtain ⟨r, t⟩ := q
    cases r <;> rfl

/-- C46 over histories: after any transactions, also such that ended in a panic, the host has finished them and kept its gas
schedule. -/
theorem c46_idle_partial (E : Env χ A) (hw : E.useWarm = false) (n : Nat) (h1 : 1 ≤ n) (hn : E.maxInstances ≤ n) :
    ∀ (txs : List Tx) (s : St χ A), Idle E s →
      Idle E (runAll E n txs s).2 ∧ (runAll E n txs s).2.met.sched = s.met.sched
  | [], s, hi => ⟨hi, rfl⟩
  | tx :: rest, s, hi => by
    have h := runTx_enough h1 hn tx s hi.toAtRest
    obtain ⟨k1, k2⟩ := idle_kept hw n tx s hi h
    obtain ⟨k3, k4⟩ := c46_idle_partial E hw n h1 hn rest _ k1
    exact ⟨k3, k4.trans k2⟩

/-- C46: run any transactions, deployments and upgrades and such that end in a panic among them, on a fresh host; a call that
follows has the result, and the effect on the node, that it has on another fresh host over the same node. The API functions must not
read the stack of snapshots (`BlindApi`); those of the host do not (`c46_api_partial`). Missing for the full property: the warm-instance
feature, and deployments and upgrades (for these see `c46_deploy_partial` and `c46_neg`). -/
theorem c46_history_partial (E : Env χ A) [BlindApi E] (hw : E.useWarm = false) (n : Nat) (h1 : 1 ≤ n) (hn : E.maxInstances ≤ n)
    (w : χ) (g : GasSchedule) (txs : List Tx) (i : CallInput) (hf : i.function ≠ "upgradeContract".toUTF8.data.toList) :
    seen (runTx E n (.call i) (runAll E n txs (freshHost w g)).2) =
      seen (runTx E n (.call i) (freshHost (runAll E n txs (freshHost w g)).2.world g)) := by
  obtain ⟨k1, k2⟩ := c46_idle_partial E hw n h1 hn txs (freshHost w g) (idle_fresh w g)
  rw [c46_call_partial E hw n i hf _ k1, k2]
  rfl

/-- C46 for the API of the host. -/
theorem c46_api_partial {E : Env χ EeiCall} (hA : E.api = eei E) (hw : E.useWarm = false) (n : Nat) (h1 : 1 ≤ n) (hn : E.maxInstances ≤ n)
    (w : χ) (g : GasSchedule) (txs : List Tx) (i : CallInput) (hf : i.function ≠ "upgradeContract".toUTF8.data.toList) :
    seen (runTx E n (.call i) (runAll E n txs (freshHost w g)).2) =
      seen (runTx E n (.call i) (freshHost (runAll E n txs (freshHost w g)).2.world g)) :=
  have := blindApi_eei hA
  c46_history_partial E hw n h1 hn w g txs i hf

/-! ### Examples -/

section
open Fixture

/-- a contract that calls another one asynchronously when it is deployed, and has a callback -/
def eagerMod : WasmModule EeiCall := mod [(initName, async (addr 101) [103]), (callbackName, .ret)]
def eagerEnv : Env World EeiCall := envWith [([1], eagerMod), ([2], mod [(Fixture.g, .ret)]),
  (List.replicate 50 3, mod [(Fixture.f, .ret)]), ([4], mod [(Fixture.f, send (addr 2) 1 .ret), (Fixture.g, signal),
    ([104], .call (.getReturnDataSize (-1)) fun _ => .ret), ([105], callDest (addr 103) [104] 1000 .ret)])]
def eagerNode : World := node [(addr 101, contract [2]), (addr 102, contract (List.replicate 50 3)), (addr 103, contract [4] 50)]
def lockSched : GasSchedule := { sched with api := fun c => if c = .asyncCallbackGasLock then 20000 else 1 }
def eagerDeploy : Tx := .create { vm := { caller := addr 1, gasProvided := 20050 }, code := [1], metadata := [7, 0] }
/-- some history: a call of the long contract, a payment, a failure, a panic in a nested call -/
def eagerPast : List Tx := [callTx (addr 1) (addr 102) Fixture.f, callTx (addr 1) (addr 103) Fixture.f,
  callTx (addr 1) (addr 103) Fixture.g, callTx (addr 1) (addr 103) [105], callTx (addr 1) (addr 99) Fixture.g]

instance eagerEnv_blind : BlindApi eagerEnv := inferInstanceAs (BlindApi (Env.real _))

/-- the hypotheses of `c46_history_partial` are met: the history has successes, failures, and a panic that leaves a snapshot behind -/
example : eagerEnv.useWarm = false ∧ eagerEnv.maxInstances ≤ 10 ∧
    (runAll eagerEnv 10 eagerPast (freshHost eagerNode lockSched)).1.map (fun r => r.map (fun o => o.map VMOutput.returnCode)) =
      [some (some .ok), some (some .ok), some (some .userError), some none, some (some .contractNotFound)] ∧
    (runAll eagerEnv 10 eagerPast (freshHost eagerNode lockSched)).2.bcStack ≠ [] := by and_intros <;> decide +kernel

/-- C46 fails for deployments: the gas locked for the callback of an asynchronous call made by the init function depends on the
size of the code that the host loaded last, in an earlier transaction. Here the deployment succeeds on a fresh host, and fails on
one that processed a call of a contract with a long code before. -/
theorem c46_neg : ∃ (E : Env World EeiCall) (n : Nat) (txs : List Tx) (tx : Tx) (w : World) (g : GasSchedule) (o o' : VMOutput),
    E.useWarm = false ∧ E.maxInstances ≤ n ∧ NoPanic (runAll E n txs (freshHost w g)).1 ∧
    (runTx E n tx (runAll E n txs (freshHost w g)).2).1 = some (some o') ∧ o'.returnCode = .outOfGas ∧
    (runTx E n tx (freshHost (runAll E n txs (freshHost w g)).2.world g)).1 = some (some o) ∧ o.returnCode = .ok := by
  have h : (match (runAll eagerEnv 10 [callTx (addr 1) (addr 102) Fixture.f] (freshHost eagerNode lockSched)).1,
      (runTx eagerEnv 10 eagerDeploy (runAll eagerEnv 10 [callTx (addr 1) (addr 102) Fixture.f] (freshHost eagerNode lockSched)).2).1,
      (runTx eagerEnv 10 eagerDeploy (freshHost (runAll eagerEnv 10 [callTx (addr 1) (addr 102) Fixture.f] (freshHost eagerNode lockSched)).2.world lockSched)).1 with
    | [some (some _)], some (some o'), some (some o) => decide (o'.returnCode = .outOfGas ∧ o.returnCode = .ok)
    | _, _, _ => false) = true := by decide +kernel
  refine ⟨eagerEnv, 10, [callTx (addr 1) (addr 102) Fixture.f], eagerDeploy, eagerNode, lockSched, ?_⟩
  generalize (runAll eagerEnv 10 [callTx (addr 1) (addr 102) Fixture.f] (freshHost eagerNode lockSched)) = a at h ⊢
  generalize (runTx eagerEnv 10 eagerDeploy a.2).1 = b at h ⊢
  generalize (runTx eagerEnv 10 eagerDeploy (freshHost a.2.world lockSched)).1 = c at h ⊢
  obtain ⟨a, u⟩ := a
  dsimp only at h ⊢
  split at h
  · rename_i o' o
    have := of_decide_eq_true h
    exact ⟨o, o', rfl, Nat.le_refl 10, (fun r hr => by simp only [List.mem_singleton] at hr; rw [hr]; simp), rfl, this.1, rfl, this.2⟩
  · cases h
end
end Arwen.Props
