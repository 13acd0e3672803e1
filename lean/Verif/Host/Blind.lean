import Verif.Eei.Commands
import Verif.Host.TopSim
/-
The host never looks at snapshots that were on the stack of the blockchain context before: more of them below change nothing.
-/
namespace Arwen
variable {χ A : Type} {E : Env χ A} {ex : Executor χ A} {α β : Type} {k : Nat}

/-- the same state, with further snapshots at the bottom of the stack of the blockchain context -/
def deep (l : List Int) (s : St χ A) : St χ A := { s with bcStack := s.bcStack ++ l }

/-- Further snapshots at the bottom change nothing, as long as there are `k` snapshots above them. -/
def BlindAt (k : Nat) (m : M χ A α) : Prop := ∀ l s, k ≤ s.bcStack.length → m (deep l s) = ((m s).1, deep l (m s).2)
/-- Further snapshots at the bottom change nothing. -/
abbrev Blind (m : M χ A α) : Prop := BlindAt 0 m

theorem deep_bottom (s : St χ A) : deep s.bcStack { s with bcStack := [] } = s := rfl

/-- what is blind to the snapshots at the bottom keeps them -/
theorem Blind.grows {m : M χ A α} (h : Blind m) (s : St χ A) : s.bcStack.length ≤ (m s).2.bcStack.length := by
  have := h s.bcStack { s with bcStack := [] } (Nat.zero_le _)
  rw [deep_bottom] at this
  rw [this]
  simp [deep]

theorem BlindAt.le {m : M χ A α} {j : Nat} (h : BlindAt j m) (hj : j ≤ k) : BlindAt k m :=
  fun l s hs => h l s (Nat.le_trans hj hs)
theorem Blind.at {m : M χ A α} (h : Blind m) : BlindAt k m := h.le (Nat.zero_le k)

theorem blind_pure (a : α) : BlindAt k (pure a : M χ A α) := fun _ _ _ => rfl
theorem blind_panic : BlindAt k (M.panic : M χ A α) := fun _ _ _ => rfl
theorem blind_oof : BlindAt k (M.oof : M χ A α) := fun _ _ _ => rfl

theorem blind_bind {m : M χ A α} {f : α → M χ A β} (hm : Blind m) (hf : ∀ a, BlindAt k (f a)) : BlindAt k (m >>= f) := by
  intro l s hs
  show M.bind m f (deep l s) = _
  have hg := hm.grows s
  simp only [M.bind_eq, M.bind, hm l s (Nat.zero_le _)]
  cases hr : m s with
  | mk r t =>
    rw [hr] at hg
    cases r with
    | ok a => exact hf a l t (Nat.le_trans hs hg)
    | panic => rfl
    | oof => rfl

theorem blind_get {f : St χ A → M χ A α} (h1 : ∀ l s, f (deep l s) = f s) (h2 : ∀ s, BlindAt k (f s)) : BlindAt k (M.get >>= f) := by
  intro l s hs
  rw [get_bind, get_bind, h1]
  exact h2 s l s hs

theorem blind_modify {g : St χ A → St χ A} (h : ∀ l s, g (deep l s) = deep l (g s)) : BlindAt k (M.modify g) :=
  fun l s _ => by show (_, _) = _; rw [h]; rfl
theorem blind_lift {g : St χ A → α × St χ A} (h : ∀ l s, g (deep l s) = ((g s).1, deep l (g s).2)) : BlindAt k (M.lift g) :=
  fun l s _ => by show (_, _) = _; rw [h]; rfl
theorem blind_gets {g : St χ A → α} (h : ∀ l s, g (deep l s) = g s) : BlindAt k (M.gets g) :=
  fun l s _ => by show (_, _) = _; rw [h]; rfl

theorem blind_deferred {m : M χ A α} {f : Option α → M χ A β} (hm : Blind m) (hf : ∀ a, BlindAt k (f a)) :
    BlindAt k (M.deferred m f) := by
  intro l s hs
  have hg := hm.grows s
  simp only [M.deferred, hm l s (Nat.zero_le _)]
  cases hr : m s with
  | mk r t =>
    rw [hr] at hg
    have ht := Nat.le_trans hs hg
    cases r with
    | ok a => exact hf _ l t ht
    | oof => rfl
    | panic =>
      dsimp only
      rw [hf none l t ht]
      cases f none t with
      | mk r u => cases r <;> rfl

theorem blind_ite {c : Prop} [Decidable c] {m n : M χ A α} (hm : BlindAt k m) (hn : BlindAt k n) : BlindAt k (if c then m else n) := by
  split
  · exact hm
  · exact hn

/-- pops: with a snapshot above -/
theorem blind_popSet : BlindAt 1 (M.modify (St.bcPopSet E)) := by
  intro l s hs
  have e : St.bcPopSet E (deep l s) = deep l (St.bcPopSet E s) := by
    obtain ⟨w, fl, big, sto, out, met, rt, bc, ins, ni⟩ := s
    cases bc with
    | nil => simp at hs
    | cons x xs => rfl
  show (_, _) = _
  rw [e]; rfl
theorem popDiscard_deep (l : List Int) (s : St χ A) (hs : 1 ≤ s.bcStack.length) : St.bcPopDiscard (deep l s) = deep l (St.bcPopDiscard s) := by
  obtain ⟨w, fl, big, sto, out, met, rt, bc, ins, ni⟩ := s
  cases bc with
  | nil => simp at hs
  | cons x xs => rfl
theorem blind_popDiscard : BlindAt 1 (M.modify (St.bcPopDiscard) : M χ A Unit) := by
  intro l s hs
  show (_, _) = _
  rw [popDiscard_deep l s hs]; rfl
/-- a pop, with a snapshot above, before something that is blind -/
theorem blind_bindPop {m : M χ A α} {f : α → M χ A β} (hm : BlindAt k m) (hf : ∀ {a}, Blind (f a)) : BlindAt k (m >>= f) := by
  intro l s hs
  show M.bind m f (deep l s) = _
  simp only [M.bind_eq, M.bind, hm l s hs]
  cases m s with
  | mk r t =>
    cases r with
    | ok a => exact hf l t (Nat.zero_le _)
    | panic => rfl
    | oof => rfl
theorem blind_push {f : Unit → M χ A α} (h : BlindAt 1 (f ())) : Blind (M.modify (St.bcPush E) >>= f) := by
  intro l s _
  rw [modify_bind, modify_bind, show St.bcPush E (deep l s) = deep l (St.bcPush E s) from rfl]
  exact h l _ (by simp [St.bcPush])

/-! ### The contexts -/

theorem deep_getBalance (a : Addr) (l : List Int) (s : St χ A) : getBalance E a (deep l s) = ((getBalance E a s).1, deep l (getBalance E a s).2) := by
  unfold getBalance acctOf
  dsimp only [deep]
  generalize s.out.getAcc a = q
  obtain ⟨acc, b, o⟩ := q
  dsimp only
  cases (if b = true then none else acc.balance) with
  | some x => rfl
  | none =>
    cases E.hook.userAccount s.world a with
    | error e => rfl
    | ok o => cases o <;> rfl

/-- reading a nonce needs only the output, the node and the flags -/
def nonceParts (E : Env χ A) (c : Addr) (o : OutCtx) (w : χ) (fl : Flags) : Except Err UInt64 × OutCtx :=
  if !((o.getAcc c).2.1 || ((o.getAcc c).1.nonce = 0 && fl.v3)) then (.ok (o.getAcc c).1.nonce, (o.getAcc c).2.2)
  else
    match E.hook.userAccount w c with
    | .error e => (.error e, (o.getAcc c).2.2)
    | .ok none => (.ok 0, (o.getAcc c).2.2)
    | .ok (some ua) => (.ok ua.nonce, (o.getAcc c).2.2.setAcc c { (o.getAcc c).1 with nonce := ua.nonce })

theorem getNonce_parts (c : Addr) (s : St χ A) : getNonce E c s =
    ((nonceParts E c s.out s.world s.flags).1, { s with out := (nonceParts E c s.out s.world s.flags).2 }) := by
  unfold getNonce nonceParts
  generalize s.out.getAcc c = q
  obtain ⟨acc, b, o⟩ := q
  dsimp only
  generalize hb : (!(b || decide (acc.nonce = 0) && s.flags.v3)) = x
  cases x with
  | true => rfl
  | false =>
    simp only [Bool.false_eq_true, if_false]
    cases E.hook.userAccount s.world c with
    | error e => rfl
    | ok o => cases o <;> rfl

theorem deep_getNonce (a : Addr) (l : List Int) (s : St χ A) : getNonce E a (deep l s) = ((getNonce E a s).1, deep l (getNonce E a s).2) := by
  rw [getNonce_parts, getNonce_parts]
  rfl

theorem deep_increaseNonce (a : Addr) (l : List Int) (s : St χ A) : increaseNonce E a (deep l s) = deep l (increaseNonce E a s) := by
  unfold increaseNonce
  rw [deep_getNonce]
  rfl

theorem deep_newAddress (a : Addr) (l : List Int) (s : St χ A) : newAddress E a (deep l s) = ((newAddress E a s).1, deep l (newAddress E a s).2) := by
  unfold newAddress
  rw [deep_getNonce]
  generalize getNonce E a s = q
  obtain ⟨r, t⟩ := q
  cases r <;> rfl

theorem deep_getCode (a : Addr) (l : List Int) (s : St χ A) : getCode E a (deep l s) = ((getCode E a s).1, deep l (getCode E a s).2) := by
  unfold getCode
  dsimp only [deep]
  split
  · rfl
  · cases E.hook.userAccount s.world a with
    | error e => rfl
    | ok o =>
      cases o with
      | none => rfl
      | some ua => dsimp only; split <;> rfl

theorem deep_getSCCode (l : List Int) (s : St χ A) : getSCCode E (deep l s) = ((getSCCode E s).1, deep l (getSCCode E s).2) := by
  unfold getSCCode
  rw [show (deep l s).rt.cur.scAddress = s.rt.cur.scAddress from rfl, deep_getCode]
  generalize getCode E s.rt.cur.scAddress s = q
  obtain ⟨r, t⟩ := q
  cases r <;> rfl

theorem deep_transferValueOnly (d sn : Addr) (v : Int) (c : Bool) (l : List Int) (s : St χ A) :
    transferValueOnly E d sn v c (deep l s) = ((transferValueOnly E d sn v c s).1, deep l (transferValueOnly E d sn v c s).2) := by
  unfold transferValueOnly
  split
  · rfl
  · rw [deep_getBalance]
    generalize getBalance E sn s = q
    obtain ⟨b, t⟩ := q
    dsimp only
    split
    · rfl
    · rw [show (deep l t).world = t.world from rfl]
      cases E.hook.isPayable t.world d with
      | error e => rfl
      | ok p =>
        by_cases hb : ((c || !t.flags.esdt) && !p && decide (v > 0) &&
            !(t.flags.v3 && decide (t.rt.cur.vmInput.callType = .asynchronousCall))) = true
        · simp only [show (deep l t).flags = t.flags from rfl, show (deep l t).rt = t.rt from rfl, hb, if_true]
        · simp only [show (deep l t).flags = t.flags from rfl, show (deep l t).rt = t.rt from rfl, hb, if_false]
          rfl

theorem deep_transfer (d sn : Addr) (gl gk : UInt64) (v : Int) (data : Bytes) (ct : CallType) (l : List Int) (s : St χ A) :
    transfer E d sn gl gk v data ct (deep l s) = ((transfer E d sn gl gk v data ct s).1, deep l (transfer E d sn gl gk v data ct s).2) := by
  unfold transfer
  rw [deep_transferValueOnly]
  generalize transferValueOnly E d sn v _ s = q
  obtain ⟨r, t⟩ := q
  cases r <;> rfl

theorem deep_outputOnError (e : Err) (l : List Int) (s : St χ A) :
    outputOnError E e (deep l s) = ((outputOnError E e s).1, deep l (outputOnError E e s).2) := rfl

theorem deep_updateGasOnSuccess (l : List Int) (s : St χ A) :
    updateGasOnSuccess (deep l s) = ((updateGasOnSuccess s).1, deep l (updateGasOnSuccess s).2) := by
  unfold updateGasOnSuccess
  rw [show setGasUsed (updateSCGasUsed (deep l s)) = ((setGasUsed (updateSCGasUsed s)).1, deep l (setGasUsed (updateSCGasUsed s)).2) from rfl]
  generalize setGasUsed (updateSCGasUsed s) = q
  obtain ⟨r, t⟩ := q
  cases r <;> rfl

theorem deep_getVMOutput (l : List Int) (s : St χ A) : getVMOutput E (deep l s) = ((getVMOutput E s).1, deep l (getVMOutput E s).2) := by
  unfold getVMOutput
  dsimp only
  generalize hu : ({ s with out := { s.out.removeNonUpdatedCode with cur := { s.out.removeNonUpdatedCode.cur with
      gasRemaining := St.gasLeft { s with out := s.out.removeNonUpdatedCode } } } } : St χ A) = u
  rw [show ({ deep l s with out := { (deep l s).out.removeNonUpdatedCode with cur := { (deep l s).out.removeNonUpdatedCode.cur with
      gasRemaining := St.gasLeft { deep l s with out := (deep l s).out.removeNonUpdatedCode } } } } : St χ A) = deep l u from by rw [← hu]; rfl,
    deep_updateGasOnSuccess]
  generalize updateGasOnSuccess u = q
  obtain ⟨r, t⟩ := q
  cases r <;> rfl

theorem deep_readStorage (a : Addr) (key : Bytes) (l : List Int) (s : St χ A) :
    readStorage E a key (deep l s) = ((readStorage E a key s).1, deep l (readStorage E a key s).2) := by
  unfold readStorage
  dsimp only [deep]
  generalize s.out.getAcc a = q
  obtain ⟨acc, b, o⟩ := q
  dsimp only
  cases acc.storage.get? key <;> rfl

theorem deep_fromCompiled (h : Bytes) (g : UInt64) (n : Bool) (l : List Int) (s : St χ A) :
    fromCompiled E h g n (deep l s) = ((fromCompiled E h g n s).1, deep l (fromCompiled E h g n s).2) := by
  unfold fromCompiled
  rw [show (deep l s).flags = s.flags from rfl, show (deep l s).world = s.world from rfl]
  split
  · rfl
  · split
    · rfl
    · cases E.hook.compiledCode s.world h with
      | none => rfl
      | some cc =>
        dsimp only
        cases E.wasm.fromCompiled cc <;> rfl

theorem deep_setAsyncContextCallback (id cb : Bytes) (l : List Int) (s : St χ A) :
    setAsyncContextCallback id cb (deep l s) = ((setAsyncContextCallback id cb s).1, deep l (setAsyncContextCallback id cb s).2) := by
  unfold setAsyncContextCallback
  dsimp only [deep]
  cases s.rt.cur.asyncContextInfo.contexts.get? id <;> rfl

theorem deep_cleanInstance (l : List Int) (s : St χ A) : (deep l s).cleanInstance = deep l s.cleanInstance := by
  unfold St.cleanInstance
  rw [show (deep l s).rt = s.rt from rfl, show (deep l s).isWarm = s.isWarm from rfl]
  cases s.rt.instance_ with
  | none => rfl
  | some i => dsimp only; split <;> rfl

theorem deep_popInstance (l : List Int) (s : St χ A) : (deep l s).popInstance = deep l s.popInstance := by
  unfold St.popInstance
  rw [show (deep l s).rt = s.rt from rfl]
  cases s.rt.instanceStack with
  | nil => rfl
  | cons p rest =>
    dsimp only
    split
    · rfl
    · rw [show ({ deep l s with rt := { s.rt with instanceStack := rest } } : St χ A) = deep l { s with rt := { s.rt with instanceStack := rest } } from rfl,
        deep_cleanInstance]
      rfl

theorem deep_rtPopSet (l : List Int) (s : St χ A) : (deep l s).rtPopSet = deep l s.rtPopSet := by
  unfold St.rtPopSet
  rw [show (deep l s).rt = s.rt from rfl]
  cases s.rt.stack with
  | nil => rfl
  | cons p rest =>
    dsimp only
    exact deep_popInstance l { s with rt := { s.rt with cur := p, stack := rest } }

theorem blind_setPointsUsed (g : UInt64) : BlindAt k (setPointsUsed g : M χ A Unit) := by
  intro l s _
  unfold setPointsUsed
  rw [show (deep l s).rt = s.rt from rfl]
  cases s.rt.instance_ <;> rfl
theorem blind_setBreakpoint (b : Breakpoint) : BlindAt k (setBreakpoint b : M χ A Unit) := by
  intro l s _
  unfold setBreakpoint
  rw [show (deep l s).rt = s.rt from rfl]
  cases s.rt.instance_ <;> rfl
theorem blind_getBreakpoint : BlindAt k (getBreakpoint : M χ A Breakpoint) := by
  intro l s _
  unfold getBreakpoint
  rw [show (deep l s).rt = s.rt from rfl]
  cases s.rt.instance_ <;> rfl
theorem blind_curInst : BlindAt k (curInst : M χ A (Inst A)) := by
  intro l s _
  unfold curInst
  rw [show (deep l s).rt = s.rt from rfl]
  cases s.rt.instance_ <;> rfl
theorem blind_meterInit (i : VMInput) : BlindAt k (meterInit i : M χ A VMInput) := fun _ _ _ => rfl
theorem blind_deductInitialGas (n : Nat) (b c : UInt64) : BlindAt k (deductInitialGas n b c : M χ A (Option Err)) := by
  intro l s _
  unfold deductInitialGas
  rw [show (deep l s).rt = s.rt from rfl]
  dsimp only
  split <;> rfl
theorem blind_extractUpgrade : BlindAt k (extractUpgrade : M χ A (Option (Bytes × Bytes))) := by
  intro l s _
  unfold extractUpgrade
  rw [show (deep l s).rt = s.rt from rfl]
  match h : s.rt.cur.vmInput.args with
  | [] => rfl
  | [_] => rfl
  | _ :: _ :: _ => rfl
theorem blind_setWarm (g : UInt64) : BlindAt k (setWarm E g : M χ A Bool) := by
  intro l s _
  unfold setWarm
  rw [show (deep l s).rt = s.rt from rfl]
  split
  · cases s.rt.warmInstance <;> rfl
  · rfl
theorem blind_memStore (o : Int32) (d : Bytes) : BlindAt k (memStore E o d : M χ A (Option Err)) := by
  intro l s _
  unfold memStore
  rw [show (deep l s).rt = s.rt from rfl, show (deep l s).insts = s.insts from rfl]
  split
  · rfl
  · cases s.rt.instance_ with
    | none => rfl
    | some i =>
      dsimp only
      cases memStorePure E.wasm.growOk (s.insts i).mem o d with
      | none => rfl
      | some p => obtain ⟨e, m⟩ := p; rfl
theorem blind_getStorageUnmetered (key : Bytes) : BlindAt k (getStorageUnmetered E key : M χ A Bytes) :=
  fun l s _ => blind_lift (k := 0) (deep_readStorage s.sto.addr key) l s (Nat.zero_le _)

macro "blind_step" : tactic => `(tactic| first
  | with_reducible exact blind_pure _
  | with_reducible exact blind_panic
  | with_reducible exact blind_oof
  | with_reducible exact blind_setPointsUsed _
  | with_reducible exact blind_setBreakpoint _
  | with_reducible exact blind_getBreakpoint
  | with_reducible exact blind_curInst
  | with_reducible exact blind_meterInit _
  | with_reducible exact blind_deductInitialGas _ _ _
  | with_reducible exact blind_extractUpgrade
  | with_reducible exact blind_setWarm _
  | with_reducible exact blind_memStore _ _
  | with_reducible exact blind_getStorageUnmetered _
  | with_reducible exact blind_lift (deep_getBalance _)
  | with_reducible exact blind_lift (deep_newAddress _)
  | with_reducible exact blind_lift (deep_getCode _)
  | with_reducible exact blind_lift deep_getSCCode
  | with_reducible exact blind_lift (deep_transferValueOnly _ _ _ _)
  | with_reducible exact blind_lift (deep_transfer _ _ _ _ _ _ _)
  | with_reducible exact blind_lift (deep_outputOnError _)
  | with_reducible exact blind_lift deep_getVMOutput
  | with_reducible exact blind_lift (deep_readStorage _ _)
  | with_reducible exact blind_lift (deep_fromCompiled _ _ _)
  | with_reducible exact blind_lift (deep_setAsyncContextCallback _ _)
  | with_reducible exact blind_modify (deep_increaseNonce _)
  | with_reducible exact blind_modify deep_cleanInstance
  | with_reducible exact blind_modify deep_rtPopSet
  | assumption
  | with_reducible refine blind_get (fun _ _ => rfl) (fun _ => ?_)
  | with_reducible refine blind_bind ?_ (fun _ => ?_)
  | with_reducible refine blind_deferred ?_ (fun _ => ?_)
  | with_reducible refine blind_ite ?_ ?_
  | exact blind_modify (fun _ _ => rfl)
  | exact blind_lift (fun _ _ => rfl)
  | exact blind_gets (fun _ _ => rfl)
  | split
  | dsimp only)

theorem blind_useGas (g : UInt64) : BlindAt k (useGas g : M χ A Unit) := by unfold useGas; repeat' blind_step
theorem blind_restoreGas (g : UInt64) : BlindAt k (restoreGas g : M χ A Unit) := by unfold restoreGas; repeat' blind_step
theorem blind_freeGas (g : UInt64) : BlindAt k (freeGas g : M χ A Unit) := by unfold freeGas; repeat' blind_step
macro_rules | `(tactic| blind_step) => `(tactic| first
  | with_reducible exact blind_useGas _ | with_reducible exact blind_restoreGas _ | with_reducible exact blind_freeGas _)
theorem blind_useGasBounded (g : UInt64) : BlindAt k (useGasBounded g : M χ A (Option Err)) := by unfold useGasBounded; repeat' blind_step
theorem blind_useGasForAsyncStep : BlindAt k (useGasForAsyncStep : M χ A (Option Err)) := by
  unfold useGasForAsyncStep
  exact blind_get (fun _ _ => rfl) (fun _ => blind_useGasBounded _)
theorem blind_trackBuiltinGas (p r : UInt64) (c : Option CallInput) : BlindAt k (trackBuiltinGas p r c : M χ A Unit) := by
  unfold trackBuiltinGas; exact blind_useGas _
theorem blind_deductForExecution (c : Bytes) : BlindAt k (deductForExecution c : M χ A (Option Err)) := by unfold deductForExecution; repeat' blind_step
theorem blind_deductForDirectDeployment (c : Bytes) : BlindAt k (deductForDirectDeployment c : M χ A (Option Err)) := by
  unfold deductForDirectDeployment; repeat' blind_step
theorem blind_deductForIndirectDeployment (c : Bytes) : BlindAt k (deductForIndirectDeployment c : M χ A (Option Err)) := by
  unfold deductForIndirectDeployment; repeat' blind_step
theorem blind_useKeyGas (key : Bytes) : BlindAt k (useKeyGas key : M χ A Unit) := by unfold useKeyGas; repeat' blind_step
macro_rules | `(tactic| blind_step) => `(tactic| first
  | with_reducible exact blind_useGasBounded _ | with_reducible exact blind_useGasForAsyncStep | with_reducible exact blind_trackBuiltinGas _ _ _
  | with_reducible exact blind_deductForExecution _ | with_reducible exact blind_deductForDirectDeployment _
  | with_reducible exact blind_deductForIndirectDeployment _ | with_reducible exact blind_useKeyGas _)
theorem blind_getStorage (key : Bytes) : BlindAt k (getStorage E key : M χ A Bytes) := by unfold getStorage; repeat' blind_step
theorem blind_getStorageFromAddress (a : Addr) (key : Bytes) : BlindAt k (getStorageFromAddress E a key : M χ A Bytes) := by
  unfold getStorageFromAddress; repeat' blind_step
theorem blind_storageGas (o v : Bytes) : BlindAt k (storageGas o v : M χ A StorageStatus) := by unfold storageGas; repeat' blind_step
macro_rules | `(tactic| blind_step) => `(tactic| first
  | with_reducible exact blind_getStorage _ | with_reducible exact blind_getStorageFromAddress _ _ | with_reducible exact blind_storageGas _ _)
theorem blind_setStorage (key v : Bytes) : BlindAt k (setStorage E key v : M χ A _) := by unfold setStorage; repeat' blind_step
macro_rules | `(tactic| blind_step) => `(tactic| with_reducible exact blind_setStorage _ _)
theorem blind_setProtectedStorage (key v : Bytes) : BlindAt k (setProtectedStorage E key v : M χ A _) := by
  unfold setProtectedStorage; repeat' blind_step
theorem blind_verifyContractCode : BlindAt k (verifyContractCode E : M χ A _) := by unfold verifyContractCode; repeat' blind_step
macro_rules | `(tactic| blind_step) => `(tactic| first
  | with_reducible exact blind_setProtectedStorage _ _ | with_reducible exact blind_verifyContractCode)
theorem blind_fromByteCode (c h : Bytes) (g : UInt64) (n : Bool) : BlindAt k (fromByteCode E c h g n : M χ A _) := by
  unfold fromByteCode; repeat' blind_step
macro_rules | `(tactic| blind_step) => `(tactic| with_reducible exact blind_fromByteCode _ _ _ _)
theorem blind_startInstance (c : Bytes) (g : UInt64) (n : Bool) : BlindAt k (startInstance E c g n : M χ A _) := by
  unfold startInstance; repeat' blind_step
theorem blind_getFunctionToCall : BlindAt k (getFunctionToCall : M χ A _) := by unfold getFunctionToCall; repeat' blind_step
theorem blind_getInitFunction : BlindAt k (getInitFunction : M χ A _) := by unfold getInitFunction; repeat' blind_step
theorem blind_hasCallbackMethod : BlindAt k (hasCallbackMethod : M χ A _) := by unfold hasCallbackMethod; repeat' blind_step
theorem blind_failExecution (e : Option Err) : BlindAt k (failExecution E e : M χ A _) := by unfold failExecution; repeat' blind_step
theorem blind_signalUserError (e : Bytes) : BlindAt k (signalUserError e : M χ A _) := by unfold signalUserError; repeat' blind_step
macro_rules | `(tactic| blind_step) => `(tactic| first
  | with_reducible exact blind_startInstance _ _ _ | with_reducible exact blind_getFunctionToCall | with_reducible exact blind_getInitFunction
  | with_reducible exact blind_hasCallbackMethod | with_reducible exact blind_failExecution _ | with_reducible exact blind_signalUserError _)
theorem blind_withFault (e : Err) : BlindAt k (withFault E e : M χ A _) := by unfold withFault; repeat' blind_step
theorem blind_executeAsyncCall (a : Addr) (d v : Bytes) : BlindAt k (executeAsyncCall a d v : M χ A _) := by
  unfold executeAsyncCall; repeat' blind_step
macro_rules | `(tactic| blind_step) => `(tactic| first
  | with_reducible exact blind_withFault _ | with_reducible exact blind_executeAsyncCall _ _ _)

/-! ### Running contracts -/

/-- nested calls are blind to the snapshots at the bottom -/
class BlindEx (ex : Executor χ A) : Prop where
  dest : ∀ i, Blind (ex.dest i)
  same : ∀ i, Blind (ex.same i)

theorem blind_exDest [h : BlindEx ex] (i : CallInput) : BlindAt k (ex.dest i) := (h.dest i).at
theorem blind_exSame [h : BlindEx ex] (i : CallInput) : BlindAt k (ex.same i) := (h.same i).at
macro_rules | `(tactic| blind_step) => `(tactic| first
  | with_reducible apply blind_exDest | with_reducible apply blind_exSame)

/-- an API function that does not read the snapshots -/
def BlindProg : Free χ A α → Prop
  | .pure _ => True
  | .panic => True
  | .ask f => (∀ l s, f (deep l s) = f s) ∧ ∀ s, BlindProg (f s)
  | .op _ f => ∀ r, BlindProg (f r)

/-- no API function reads the snapshots -/
class BlindApi (E : Env χ A) : Prop where
  api : ∀ a, BlindProg (E.api a)

theorem blind_afterBuiltin (i : CallInput) (o : VMOutput) : BlindAt k (afterBuiltin E i o : M χ A _) := by
  unfold afterBuiltin; repeat' blind_step
theorem blind_processBuiltin (i : CallInput) : BlindAt k (processBuiltin E i : M χ A _) := by unfold processBuiltin; repeat' blind_step
macro_rules | `(tactic| blind_step) => `(tactic| first
  | with_reducible apply blind_afterBuiltin | with_reducible apply blind_processBuiltin)
theorem blind_callBuiltin (i : CallInput) : BlindAt k (callBuiltin E i : M χ A _) := by unfold callBuiltin; repeat' blind_step
macro_rules | `(tactic| blind_step) => `(tactic| with_reducible apply blind_callBuiltin)
theorem blind_handleBuiltin (i : CallInput) : BlindAt k (handleBuiltin E i : M χ A _) := by unfold handleBuiltin; repeat' blind_step
theorem blind_executeEsdtTransfer (d sn : Addr) (t : Bytes) (n : UInt64) (v : Int) (ct : CallType) :
    BlindAt k (executeEsdtTransfer E d sn t n v ct : M χ A _) := by unfold executeEsdtTransfer; repeat' blind_step
macro_rules | `(tactic| blind_step) => `(tactic| first
  | with_reducible apply blind_handleBuiltin | with_reducible apply blind_executeEsdtTransfer)
theorem blind_transferESDT (d sn : Addr) (t : Bytes) (n : UInt64) (v : Int) (ci : Option CallInput) :
    BlindAt k (transferESDT E d sn t n v ci : M χ A _) := by unfold transferESDT; repeat' blind_step
theorem blind_createNewContract [BlindEx ex] (i : CreateInput) : BlindAt k (createNewContract E ex i : M χ A _) := by
  unfold createNewContract; repeat' blind_step
macro_rules | `(tactic| blind_step) => `(tactic| first
  | with_reducible apply blind_transferESDT | with_reducible apply blind_createNewContract)
theorem blind_runCmd [BlindEx ex] : ∀ c : Cmd, BlindAt k (runCmd E ex c)
  | .useGas n => blind_useGas n
  | .memStore off data => blind_memStore off data
  | .failExecution e => blind_failExecution (some e)
  | .signalUserError msg => blind_signalUserError msg
  | .executeAsyncCall a d v => blind_executeAsyncCall a d v
  | .addAsyncContextCall _ _ => blind_modify (fun _ _ => rfl)
  | .setAsyncContextCallback id cb => blind_lift (deep_setAsyncContextCallback id cb)
  | .getBalance a => blind_lift (deep_getBalance a)
  | .getCode a => blind_lift (deep_getCode a)
  | .getStorage key => blind_getStorage key
  | .getStorageUnmetered key => blind_getStorageUnmetered key
  | .getStorageFromAddress a key => blind_getStorageFromAddress a key
  | .setStorage key v => blind_setStorage key v
  | .setTimeLock _ v => blind_setProtectedStorage _ v
  | .finish _ => blind_modify (fun _ _ => rfl)
  | .writeLog _ _ _ => blind_modify (fun _ _ => rfl)
  | .transfer d sn gl gk v data ct => blind_lift (deep_transfer d sn gl gk v data ct)
  | .transferESDT d sn tok n v ci => blind_transferESDT d sn tok n v ci
  | .bigGet _ => blind_lift (fun _ _ => rfl)
  | .bigSet _ _ => blind_modify (fun _ _ => rfl)
  | .bigPut _ => blind_lift (fun _ _ => rfl)
  | .executeOnDest i => blind_bind (blind_exDest i) (fun _ => blind_pure _)
  | .executeOnSame i => blind_exSame i
  | .executeReadOnly i => blind_bind (blind_modify (fun _ _ => rfl)) (fun _ => blind_bind (blind_exSame i)
      (fun _ => blind_bind (blind_modify (fun _ _ => rfl)) (fun _ => blind_pure _)))
  | .createContract i => blind_createNewContract i
  | .revertSnapshot _ => blind_modify (fun _ _ => rfl)
  | .outOfGas => blind_setBreakpoint .outOfGas

theorem blind_interp [BlindEx ex] : ∀ (p : Free χ A α), BlindProg p → Blind (interp E ex p)
  | .pure a, _ => blind_pure a
  | .panic, _ => blind_panic
  | .ask f, h => by
    intro l s _
    show interp E ex (f (deep l s)) (deep l s) = _
    rw [h.1]
    exact blind_interp (f s) (h.2 s) l s (Nat.zero_le _)
  | .op c f, h => by
    show Blind (runCmd E ex c >>= fun r => interp E ex (f r))
    exact blind_bind (blind_runCmd c) (fun r => blind_interp (f r) (h r))

theorem blind_runProg [BlindEx ex] [hA : BlindApi E] (i : Nat) : ∀ p : Prog A, Blind (runProg E ex i p)
  | .ret => blind_pure _
  | .trap => blind_pure _
  | .burn n p => by
    have := blind_runProg i p
    unfold runProg; repeat' blind_step
  | .call a p => by
    have := fun r => blind_runProg i (p r)
    unfold runProg
    refine blind_bind (blind_interp _ (hA.api a)) (fun r => ?_)
    have := this r
    repeat' blind_step
  | .load o n p => by
    have := fun r => blind_runProg i (p r)
    unfold runProg
    refine blind_get (fun _ _ => rfl) (fun s => ?_)
    have := this ((((s.insts i).mem).drop o).take n)
    dsimp only
    repeat' blind_step
  | .store o b p => by
    have := blind_runProg i p
    unfold runProg; repeat' blind_step

theorem blind_runProgAt [BlindEx ex] [BlindApi E] (i : Nat) (p : Prog A) : BlindAt k (runProg E ex i p) := (blind_runProg i p).at
theorem blind_canExecSync (d : Addr) : BlindAt k (canExecSync E d : M χ A _) := by unfold canExecSync; repeat' blind_step
macro_rules | `(tactic| blind_step) => `(tactic| with_reducible apply blind_canExecSync)
theorem blind_asyncMode (i : AsyncCallInfo) : BlindAt k (asyncMode E i : M χ A _) := by unfold asyncMode; repeat' blind_step
theorem blind_sendAsync (v : AsyncView) : BlindAt k (sendAsync E v : M χ A _) := by unfold sendAsync; repeat' blind_step
theorem blind_sendCallbackToCaller : BlindAt k (sendCallbackToCaller E : M χ A _) := by unfold sendCallbackToCaller; repeat' blind_step
theorem blind_sendStorageCallback (c : Addr) (d : Bytes) : BlindAt k (sendStorageCallback E c d : M χ A _) := by
  unfold sendStorageCallback; repeat' blind_step
theorem blind_processCallbackOutput (o : Option VMOutput) (e : Option Err) : BlindAt k (processCallbackOutput E o e : M χ A _) := by
  unfold processCallbackOutput; repeat' blind_step
theorem blind_execSyncDest [BlindEx ex] (v : AsyncView) : BlindAt k (execSyncDest ex v) := by unfold execSyncDest; repeat' blind_step
theorem blind_execSyncCallback [BlindEx ex] (v : AsyncView) (o : Option VMOutput) (e : Option Err) :
    BlindAt k (execSyncCallback ex v o e) := by unfold execSyncCallback; repeat' blind_step
macro_rules | `(tactic| blind_step) => `(tactic| first
  | with_reducible apply blind_asyncMode | with_reducible apply blind_sendAsync | with_reducible apply blind_sendCallbackToCaller
  | with_reducible apply blind_sendStorageCallback | with_reducible apply blind_processCallbackOutput
  | with_reducible apply blind_execSyncDest | with_reducible apply blind_execSyncCallback)
theorem blind_handleAsyncBreakpoint [BlindEx ex] : BlindAt k (handleAsyncBreakpoint E ex) := by
  unfold handleAsyncBreakpoint; repeat' blind_step
macro_rules | `(tactic| blind_step) => `(tactic| with_reducible apply blind_handleAsyncBreakpoint)
theorem blind_handleBreakpoint [BlindEx ex] : BlindAt k (handleBreakpoint E ex) := by unfold handleBreakpoint; repeat' blind_step
macro_rules | `(tactic| blind_step) => `(tactic| first
  | with_reducible apply blind_handleBreakpoint | with_reducible apply blind_runProgAt)
theorem blind_callFunction [BlindEx ex] [BlindApi E] (f : Prog A) : BlindAt k (callFunction E ex f) := by
  unfold callFunction; repeat' blind_step
theorem blind_callbackAsync [BlindEx ex] (c : AsyncGeneratedCall) (o : VMOutput) (e : Option Err) : BlindAt k (callbackAsync E ex c o e) := by
  unfold callbackAsync; repeat' blind_step
macro_rules | `(tactic| blind_step) => `(tactic| first
  | with_reducible apply blind_callFunction | with_reducible apply blind_callbackAsync)
theorem blind_processAsyncCall [BlindEx ex] (c : AsyncGeneratedCall) : BlindAt k (processAsyncCall E ex c) := by
  unfold processAsyncCall; repeat' blind_step
macro_rules | `(tactic| blind_step) => `(tactic| with_reducible apply blind_processAsyncCall)
theorem blind_processCalls [BlindEx ex] : ∀ cs, Blind (processCalls E ex cs)
  | [] => blind_pure _
  | c :: rest => by
    have := blind_processCalls rest
    unfold processCalls; repeat' blind_step
theorem blind_processCallsAt [BlindEx ex] (cs : List AsyncGeneratedCall) : BlindAt k (processCalls E ex cs) := (blind_processCalls cs).at
macro_rules | `(tactic| blind_step) => `(tactic| with_reducible apply blind_processCallsAt)
theorem blind_processContexts [BlindEx ex] : ∀ ids info, Blind (processContexts E ex ids info)
  | [], _ => blind_pure _
  | id :: rest, info => by
    have := blind_processContexts rest
    unfold processContexts
    refine blind_bind (blind_processCalls _) (fun r => ?_)
    obtain ⟨c, e⟩ := r
    cases e with
    | some e => exact blind_pure _
    | none => exact this _
theorem blind_sendPending : ∀ cs, Blind (sendPending E cs : M χ A _)
  | [] => blind_pure _
  | c :: rest => by
    have := blind_sendPending rest
    unfold sendPending; repeat' blind_step
theorem blind_processContextsAt [BlindEx ex] (ids : List Bytes) (i : AsyncContextInfo) : BlindAt k (processContexts E ex ids i) :=
  (blind_processContexts ids i).at
theorem blind_sendPendingAt (cs : List AsyncGeneratedCall) : BlindAt k (sendPending E cs : M χ A _) := (blind_sendPending cs).at
theorem blind_savePending (i : AsyncContextInfo) : BlindAt k (savePending E i : M χ A _) := by unfold savePending; repeat' blind_step
macro_rules | `(tactic| blind_step) => `(tactic| first
  | with_reducible apply blind_processContextsAt | with_reducible apply blind_sendPendingAt | with_reducible apply blind_savePending)
theorem blind_processAsyncInfo [BlindEx ex] (i : AsyncContextInfo) : BlindAt k (processAsyncInfo E ex i) := by
  unfold processAsyncInfo; repeat' blind_step
theorem blind_currentAsyncInfo : BlindAt k (currentAsyncInfo E : M χ A _) := by unfold currentAsyncInfo; repeat' blind_step
macro_rules | `(tactic| blind_step) => `(tactic| first
  | with_reducible apply blind_processAsyncInfo | with_reducible apply blind_currentAsyncInfo)
theorem blind_functionByCallType (c : CallType) : BlindAt k (functionByCallType E c : M χ A _) := by unfold functionByCallType; repeat' blind_step
theorem blind_processCallbackStack : BlindAt k (processCallbackStack E : M χ A _) := by unfold processCallbackStack; repeat' blind_step
theorem blind_callInit [BlindEx ex] [BlindApi E] : BlindAt k (callInit E ex) := by unfold callInit; repeat' blind_step
macro_rules | `(tactic| blind_step) => `(tactic| first
  | with_reducible apply blind_functionByCallType | with_reducible apply blind_processCallbackStack | with_reducible apply blind_callInit)
theorem blind_deploySteps [BlindEx ex] [BlindApi E] (d : CodeDeployInput) : BlindAt k (deploySteps E ex d) := by unfold deploySteps; repeat' blind_step
macro_rules | `(tactic| blind_step) => `(tactic| with_reducible apply blind_deploySteps)
theorem blind_executeUpgrade [BlindEx ex] [BlindApi E] (i : CallInput) : BlindAt k (executeUpgrade E ex i) := by
  unfold executeUpgrade; repeat' blind_step
theorem blind_callIndirect [BlindEx ex] [BlindApi E] : BlindAt k (callIndirect E ex) := by unfold callIndirect; repeat' blind_step
macro_rules | `(tactic| blind_step) => `(tactic| first
  | with_reducible apply blind_executeUpgrade | with_reducible apply blind_callIndirect)
theorem blind_execute [BlindEx ex] [BlindApi E] (i : CallInput) : BlindAt k (execute E ex i) := by unfold execute; repeat' blind_step
theorem blind_finishDest (e : Option Err) : BlindAt k (finishDest E e : M χ A _) := by unfold finishDest; repeat' blind_step
theorem blind_enterDest (i : CallInput) : BlindAt k (enterDest i : M χ A _) := by unfold enterDest; repeat' blind_step
macro_rules | `(tactic| blind_step) => `(tactic| first
  | with_reducible apply blind_execute | with_reducible apply blind_finishDest | with_reducible apply blind_enterDest)
theorem blind_bodyDest [BlindEx ex] [BlindApi E] (i : CallInput) : BlindAt k (bodyDest E ex i) := by unfold bodyDest; repeat' blind_step
theorem blind_bodySame [BlindEx ex] [BlindApi E] (i : CallInput) : BlindAt k (bodySame E ex i) := by unfold bodySame; repeat' blind_step
macro_rules | `(tactic| blind_step) => `(tactic| first
  | with_reducible apply blind_bodyDest | with_reducible apply blind_bodySame)
theorem blind_execDestNoBuiltin [BlindEx ex] [BlindApi E] (i : CallInput) : BlindAt k (execDestNoBuiltin E ex i) := by
  unfold execDestNoBuiltin; repeat' blind_step
theorem blind_execDest [BlindEx ex] [BlindApi E] (i : CallInput) : Blind (execDest E ex i) := by
  unfold execDest
  refine blind_push ?_
  extract_lets jp
  have hj : ∀ f, BlindAt 1 (jp f) := by
    intro f
    dsimp only [jp]
    split
    · exact blind_bindPop blind_popSet (by repeat' blind_step)
    · refine blind_bind (blind_execDestNoBuiltin _) (fun r => ?_)
      refine blind_bindPop ?_ (blind_pure _)
      split
      · exact blind_popSet
      · exact blind_popDiscard
    · exact blind_bindPop blind_popDiscard (blind_pure _)
  refine blind_ite ?_ ?_
  · refine blind_bind (blind_handleBuiltin _) (fun r => ?_)
    split
    · exact blind_bind (blind_pure _) hj
    · exact blind_bind (blind_pure _) hj
  · exact blind_bind (blind_pure _) hj

theorem popInstance_bcStack (s : St χ A) : s.popInstance.bcStack = s.bcStack := by
  have h := congrArg St.bcStack (deep_popInstance s.bcStack { s with bcStack := [] })
  rw [deep_bottom] at h
  rw [h]
  have : ({ s with bcStack := [] } : St χ A).popInstance.bcStack = [] := by
    unfold St.popInstance St.cleanInstance
    repeat' split
    all_goals first | rfl | (dsimp only; repeat' split) <;> rfl
  simp [deep, this]
theorem rtPopSet_bcStack (s : St χ A) : s.rtPopSet.bcStack = s.bcStack := by
  unfold St.rtPopSet
  split
  · rfl
  · exact popInstance_bcStack _

theorem blind_finishSame (e : Option Err) : BlindAt 1 (finishSame E e : M χ A _) := by
  unfold finishSame
  refine blind_get (fun _ _ => rfl) (fun s => ?_)
  refine blind_ite ?_ ?_
  · intro l s hs
    have h1 : St.rtPopSet { deep l s with big := s.big.popSet, met := s.met.popSet, out := s.out.popSet } =
        deep l (St.rtPopSet { s with big := s.big.popSet, met := s.met.popSet, out := s.out.popSet }) :=
      deep_rtPopSet l { s with big := s.big.popSet, met := s.met.popSet, out := s.out.popSet }
    have h2 := blind_popSet (E := E) l (St.rtPopSet { s with big := s.big.popSet, met := s.met.popSet, out := s.out.popSet })
      (by rw [rtPopSet_bcStack]; exact hs)
    rw [← h1] at h2
    exact h2
  · refine blind_bind (blind_lift deep_getVMOutput) (fun o => ?_)
    refine blind_bindPop ?_ (blind_restoreGas _)
    intro l s hs
    have h1 : St.bcPopDiscard { deep l s with met := s.met.popMerge, out := s.out.popDiscard, big := s.big.popDiscard } =
        deep l (St.bcPopDiscard { s with met := s.met.popMerge, out := s.out.popDiscard, big := s.big.popDiscard }) :=
      popDiscard_deep l { s with met := s.met.popMerge, out := s.out.popDiscard, big := s.big.popDiscard } hs
    show (_, St.rtPopSet (St.bcPopDiscard { deep l s with met := s.met.popMerge, out := s.out.popDiscard, big := s.big.popDiscard })) = _
    rw [h1, deep_rtPopSet]
    rfl

theorem blind_execSame [BlindEx ex] [BlindApi E] (i : CallInput) : Blind (execSame E ex i) := by
  unfold execSame
  refine blind_ite (blind_pure _) ?_
  intro l s _
  have h : ∀ (F : CallInput → M χ A (Option Err)) (t : St χ A), (enterSame E i >>= F) t = F (enterSameInput E i t) (enterSameState E i t) :=
    fun _ _ => rfl
  rw [h, h, show enterSameInput E i (deep l s) = enterSameInput E i s from rfl,
    show enterSameState E i (deep l s) = deep l (enterSameState E i s) from rfl]
  refine blind_deferred (k := 1) (blind_bodySame _) (fun r => ?_) l _ (Nat.succ_le_succ (Nat.zero_le _))
  split
  · exact blind_bindPop (blind_finishSame _) blind_panic
  · exact blind_bindPop (blind_finishSame _) (blind_pure _)

instance blind_execN [BlindApi E] : ∀ n, BlindEx (execN E n)
  | 0 => ⟨fun _ => blind_oof, fun _ => blind_oof⟩
  | n + 1 => by
    have := blind_execN n
    exact ⟨blind_execDest, blind_execSame⟩

/-! ### Transactions -/

theorem blind_performDeployment [BlindEx ex] [BlindApi E] (d : CodeDeployInput) : BlindAt k (performDeployment E ex d) := by
  unfold performDeployment; repeat' blind_step
theorem blind_outputOf (r : Except Err VMOutput) : BlindAt k (outputOf E r : M χ A _) := by unfold outputOf; repeat' blind_step
theorem blind_afterMethod [BlindEx ex] (c : CallType) : BlindAt k (afterMethod E ex c) := by unfold afterMethod; repeat' blind_step
theorem blind_enterCall (i : CallInput) : BlindAt k (enterCall i : M χ A _) := by unfold enterCall; repeat' blind_step
macro_rules | `(tactic| blind_step) => `(tactic| first
  | with_reducible apply blind_performDeployment | with_reducible apply blind_outputOf | with_reducible apply blind_afterMethod
  | with_reducible apply blind_enterCall)
theorem blind_callMethod [BlindEx ex] [BlindApi E] : BlindAt k (callMethod E ex) := by unfold callMethod; repeat' blind_step
macro_rules | `(tactic| blind_step) => `(tactic| with_reducible apply blind_callMethod)
theorem blind_createBody [BlindEx ex] [BlindApi E] (i : CreateInput) : BlindAt k (createBody E ex i) := by unfold createBody; repeat' blind_step
theorem blind_upgradeBody [BlindEx ex] [BlindApi E] (i : CallInput) : BlindAt k (upgradeBody E ex i) := by unfold upgradeBody; repeat' blind_step
theorem blind_callBody [BlindEx ex] [BlindApi E] (i : CallInput) : BlindAt k (callBody E ex i) := by unfold callBody; repeat' blind_step

/-- The body of a transaction is blind to snapshots that are left. -/
theorem blind_txBody [BlindApi E] (n : Nat) (tx : Tx) : Blind (txBody E (execN E n) tx) := by
  cases tx with
  | create i => exact blind_createBody i
  | call i =>
    unfold txBody
    exact blind_ite (blind_upgradeBody i) (blind_callBody i)

end Arwen

/-! ### The API functions -/

namespace Arwen
namespace Eei
variable {χ A : Type} {α : Type}

theorem bp_pure {a : α} : BlindProg (χ := χ) (A := A) (.pure a) := trivial
theorem bp_panic : BlindProg (χ := χ) (A := A) (α := α) .panic := trivial
theorem bp_ask {f : St χ A → Free χ A α} (h1 : ∀ l s, f (deep l s) = f s) (h2 : ∀ s, BlindProg (f s)) : BlindProg (.ask f) := ⟨h1, h2⟩
theorem bp_op {c : Cmd} {f : c.Resp → Free χ A α} (h : ∀ r, BlindProg (f r)) : BlindProg (.op c f) := h

theorem bp_useK {g : St χ A → UInt64} {k : P χ A} (hg : ∀ l s, g (deep l s) = g s) (h : BlindProg k) : BlindProg (useK g k) :=
  ⟨fun l s => by show Free.op _ _ = _; rw [hg], fun _ _ => h⟩
theorem bp_gasK {c : ApiCost} {k : P χ A} (h : BlindProg k) : BlindProg (gasK c k) := bp_useK (fun _ _ => rfl) h
theorem bp_copyK {n : UInt64} {k : P χ A} (h : BlindProg k) : BlindProg (copyK n k) := bp_useK (fun _ _ => rfl) h
theorem bp_persistK {n : UInt64} {k : P χ A} (h : BlindProg k) : BlindProg (persistK n k) := bp_useK (fun _ _ => rfl) h
theorem bp_extraK {l : List Int} {k : P χ A} (h : BlindProg k) : BlindProg (extraK l k) := by
  induction l with
  | nil => exact h
  | cons v vs ih =>
    unfold extraK
    split
    · exact bp_useK (fun _ _ => rfl) ih
    · exact ih
theorem bp_faultK {e : Err} {r : Int64} : BlindProg (faultK (χ := χ) (A := A) e r) := ⟨fun _ _ => rfl, fun _ _ _ => trivial⟩
theorem bp_orFaultK {e : Option Err} {r : Int64} {k : P χ A} (h : BlindProg k) : BlindProg (orFaultK e r k) := by
  cases e with
  | some e => exact bp_faultK
  | none => exact h
theorem bp_statusK {r : StorageStatus × Option Err} : BlindProg (statusK (χ := χ) (A := A) r) := bp_orFaultK trivial
theorem bp_loadEK {off len : Int32} {k : Except Err Bytes → P χ A} (h : ∀ r, BlindProg (k r)) : BlindProg (loadEK off len k) := by
  refine ⟨fun _ _ => rfl, fun s => ?_⟩
  dsimp only
  split
  · exact h _
  · trivial
theorem bp_loadK {off len : Int32} {r : Int64} {k : Bytes → P χ A} (h : ∀ b, BlindProg (k b)) : BlindProg (loadK off len r k) := by
  refine bp_loadEK (fun r => ?_)
  cases r with
  | error e => exact bp_faultK
  | ok b => exact h b
theorem bp_storeK {off : Int32} {d : Bytes} {r : Int64} {k : P χ A} (h : BlindProg k) : BlindProg (storeK off d r k) :=
  fun _ => bp_orFaultK h
theorem bp_storeEndK {off : Int32} {d : Bytes} : BlindProg (storeEndK (χ := χ) (A := A) off d) := bp_storeK trivial
theorem memLoadMultiple_deep (l : List Int) (s : St χ A) : ∀ (ns : List Int32) (off : Int32),
    memLoadMultiple (deep l s) off ns = memLoadMultiple s off ns
  | [], _ => rfl
  | n :: rest, off => by
    unfold memLoadMultiple
    rw [show memLoad (deep l s) off n = memLoad s off n from rfl, memLoadMultiple_deep l s rest]
theorem argsFromMem_deep (l : List Int) (s : St χ A) (a b c : Int32) : argsFromMem (deep l s) a b c = argsFromMem s a b c := by
  unfold argsFromMem
  simp only [memLoadMultiple_deep, show ∀ a b, memLoad (deep l s) a b = memLoad s a b from fun _ _ => rfl]
theorem bp_argsEK {a b c : Int32} {k : Except Err (List Bytes × Int32) → P χ A} (h : ∀ r, BlindProg (k r)) : BlindProg (argsEK a b c k) := by
  refine ⟨fun l s => by dsimp only; rw [argsFromMem_deep], fun s => ?_⟩
  dsimp only
  split
  · exact h _
  · trivial
theorem bp_argsGasK {a b c : Int32} {r : Int64} {k : List Bytes → P χ A} (h : ∀ b, BlindProg (k b)) : BlindProg (argsGasK a b c r k) := by
  refine bp_argsEK (fun r => ?_)
  split
  · exact bp_copyK bp_faultK
  · exact bp_copyK (h _)
theorem bp_extractK {d : Int32} {v : Option Int32} {a b c e f : Int32} {k : CallArgs → P χ A} (h : ∀ b, BlindProg (k b)) :
    BlindProg (extractK d v a b c e f k) := by
  unfold extractK
  refine bp_loadK (fun dest => ?_)
  have hr : ∀ value : Int, BlindProg (loadK a b 1 fun f' => argsEK c e f fun r =>
      match r with
      | .error _ => copyK 0 (k ⟨dest, value, f', [], 0⟩)
      | .ok (args, n) => copyK (len64 n) (k ⟨dest, value, f', args, n⟩)) := by
    intro value
    refine bp_loadK (fun f' => bp_argsEK (fun r => ?_))
    split
    · exact bp_copyK (h _)
    · exact bp_copyK (h _)
  cases v with
  | none => exact hr 0
  | some v => exact bp_loadK (fun vb => hr _)
theorem bp_topicsK {n : Nat} {off : Int32} {k : List Bytes → P χ A} (h : ∀ ts, BlindProg (k ts)) : BlindProg (topicsK n off k) := by
  induction n generalizing off k with
  | zero => exact h []
  | succ n ih => exact bp_loadK fun t => ih fun ts => h (t :: ts)

theorem bp_createK {v : Int} {args : List Bytes} {g : Int64} {code md : Bytes} {off : Int32} :
    BlindProg (createK (χ := χ) (A := A) v args g code md off) := by
  unfold createK
  refine bp_ask (fun l s => ?_) (fun s => bp_op (fun r => ?_))
  · refine congrArg (Free.op (Cmd.createContract _)) (funext fun r => ?_)
    cases (show Except Err Addr from r) <;> rfl
  · split
    · trivial
    · exact bp_storeK trivial

macro "bp_step" : tactic => `(tactic| first
  | with_reducible exact bp_pure
  | with_reducible exact bp_panic
  | with_reducible refine bp_ask (fun _ _ => rfl) (fun _ => ?_)
  | with_reducible refine bp_op (fun _ => ?_)
  | with_reducible apply bp_gasK
  | with_reducible apply bp_copyK
  | with_reducible apply bp_persistK
  | with_reducible apply bp_extraK
  | with_reducible refine bp_useK (fun _ _ => rfl) ?_
  | with_reducible exact bp_faultK
  | with_reducible apply bp_orFaultK
  | with_reducible refine bp_loadK (fun _ => ?_)
  | with_reducible refine bp_loadEK (fun _ => ?_)
  | with_reducible refine bp_argsEK (fun _ => ?_)
  | with_reducible refine bp_argsGasK (fun _ => ?_)
  | with_reducible refine bp_extractK (fun _ => ?_)
  | with_reducible apply bp_storeK
  | with_reducible exact bp_storeEndK
  | with_reducible refine bp_topicsK (fun _ => ?_)
  | with_reducible exact bp_createK
  | split
  | dsimp only
  | exact bp_statusK
  | refine bp_op (fun _ => ?_)
  | refine bp_ask (fun _ _ => rfl) (fun _ => ?_)
  | apply bp_orFaultK)

theorem bp_smallStorageLoad {signed : Bool} {k kl : Int32} : BlindProg (smallStorageLoad (χ := χ) (A := A) signed k kl) := by
  unfold smallStorageLoad
  repeat' bp_step

set_option maxHeartbeats 2000000 in
/-- No API function reads the stack of snapshots. -/
theorem eei_blind (E : Env χ EeiCall) (a : EeiCall) : BlindProg (eei E a) := by
  cases a <;> dsimp only [eei,
    getGasLeft, getSCAddress, getOwnerAddress, getShardOfAddress, isSmartContract, signalError, getExternalBalance,
    getBlockHash, esdtDataK, getESDTBalance, getESDTNFTNameLength, getESDTNFTAttributeLength, getESDTNFTURILength,
    getESDTTokenData, transferValue, transferValueExecute, transferESDTOld, transferESDTNFTExecute, createAsyncCall,
    setAsyncContextCallback, upgradeAsyncK, upgradeContract, upgradeFromSourceContract, asyncCall, getArgumentLength,
    getArgument, getFunction, getNumArguments, storageStore, storageLoadLength, storageLoadFromAddress,
    storageLoad, setStorageLock, getStorageLockK, getStorageLock, isStorageLocked, getCaller, checkNoPayment,
    getCallValue, getESDTValue, getESDTTokenName, getESDTTokenNonce, getCurrentESDTNFTNonce, getESDTTokenType,
    getCallValueTokenName, writeEventLog, finish, blockTimestamp, blockNonce, blockRound, blockEpoch, blockRandomSeed,
    stateRootHash, prevBlockTimestamp, prevBlockNonce, prevBlockRound, prevBlockEpoch, prevBlockRandomSeed,
    originalTxHash,  execTyped, exec, createContract, deployFromSourceContract, getNumReturnData,
    getReturnDataSize, getReturnData, binK, unK, shiftK, bigSign, bigCmp, putK, bigGetArgument, bigStorageStore,
    bigStorageLoad, bigGetCallValue, bigGetESDTCallValue, bigGetExternalBalance, bigGetESDTExternalBalance, bigNew,
    bigByteLength, bigGetBytes, bigSetBytes, bigIsInt64, bigGetInt64, bigSetInt64, bigFinish, smallGetArgument,
    smallFinish, smallStorageStore, hash, writeLog, verifyBLS, verifyEd25519, verifySecp256k1, ExecKind.run,
    ExecKind.cost] <;>
    first | exact bp_smallStorageLoad | (repeat' bp_step)

end Eei

instance {χ : Type} (E : Env χ EeiCall) : BlindApi E.real := ⟨Eei.eei_blind E⟩
instance {χ : Type} (E : Env χ EeiCall) (l : List Power) : BlindApi (E.without l) := ⟨fun a => by
  change BlindProg (if a.powers.any (fun p => l.contains p) then .panic else eei E a)
  split
  · exact trivial
  · exact Eei.eei_blind E a⟩
theorem blindApi_eei {χ : Type} {E : Env χ EeiCall} (h : E.api = eei E) : BlindApi E := ⟨fun a => by rw [h]; exact Eei.eei_blind E a⟩

end Arwen
