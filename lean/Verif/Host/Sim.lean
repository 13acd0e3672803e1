import Verif.Host.Trace
/-
The host methods that run while a contract runs are sequences of steps `StepA`.
-/
namespace Arwen
variable {χ A : Type} {E : Env χ A} {ex : Executor χ A} {back : Bool}

/-- nested calls that return leave the current instance as it was, and the runtime state -/
structure KeepsInst (ex : Executor χ A) : Prop where
  dest : ∀ i s r t, ex.dest i s = (.ok r, t) → t.rt.instance_ = s.rt.instance_
  same : ∀ i s r t, ex.same i s = (.ok r, t) → t.rt.instance_ = s.rt.instance_
  cur : ∀ i s r t, ex.dest i s = (.ok r, t) → t.rt.cur = s.rt.cur

/-! ### The output accounts -/

theorem getAcc_get (c : OutCtx) (a : Addr) : (c.getAcc a).2.2.cur.accounts.get? a = some (c.getAcc a).1 := by
  unfold OutCtx.getAcc
  split
  · simpa using by assumption
  · simp

theorem step_out {s : St χ A} {o : VMOutput} (h : OutStep E s o) :
    Run (StepX E ex back) s { s with out := { s.out with cur := o } } := .step (.out s o h)

theorem run_touch (s : St χ A) (a : Addr) : Run (StepX E ex back) s { s with out := (s.out.getAcc a).2.2 } := by
  unfold OutCtx.getAcc
  split
  · exact .refl s
  · rename_i h; exact step_out (.touch a h)

/-- changing an account, after it was created if missing -/
theorem run_modAcc (s : St χ A) (a : Addr) (f : OutAcc → OutAcc)
    (h : ∀ (t : St χ A) (acc : OutAcc), t = { s with out := (s.out.getAcc a).2.2 } → acc = (s.out.getAcc a).1 →
      t.out.cur.accounts.get? a = some acc →
      OutStep E t (t.out.cur.put a (f acc))) :
    Run (StepX E ex back) s { s with out := s.out.modAcc a f } := by
  refine (run_touch s a).trans ?_
  have h2 := step_out (ex := ex) (back := back) (h _ _ rfl rfl (getAcc_get s.out a))
  refine Eq.mp (congrArg _ ?_) h2
  simp only [VMOutput.put, OutCtx.modAcc, OutCtx.setAcc]
  unfold OutCtx.getAcc
  split
  · rfl
  · simp only [AMap.insert_insert]

theorem run_addTransfer (s : St χ A) (d : Addr) (t : OutTransfer) : Run (StepX E ex back) s (addTransfer d t s) :=
  run_modAcc s d _ (fun _ acc _ _ hg => .xfer d acc t hg)

theorem run_updateGasOnFailure (s : St χ A) : Run (StepX E ex back) s (updateGasOnFailure s) :=
  run_modAcc s _ _ (fun _ acc hu _ hg => by subst hu; exact .gasUsed acc hg)

theorem run_outputOnError (s : St χ A) (e : Err) : Run (StepX E ex back) s (outputOnError E e s).2 :=
  run_updateGasOnFailure s

theorem run_getBalance (s : St χ A) (a : Addr) : Run (StepX E ex back) s (getBalance E a s).2 := by
  unfold getBalance
  refine Run.trans (run_touch s a) ?_
  dsimp only
  split
  · exact .refl _
  · rename_i hb
    split
    · exact .refl _
    · rename_i ua hua
      refine step_out (s := { s with out := (s.out.getAcc a).2.2 }) (.cacheBal a _ ua (getAcc_get _ _) ?_ hua)
      split at hb
      · rename_i hn
        revert hn
        unfold OutCtx.getAcc
        split <;> simp
      · exact hb

/-- what the payer's account shows after its balance was read -/
theorem getBalance_acc (s : St χ A) (a : Addr) : ∃ acc, (getBalance E a s).2.out.cur.accounts.get? a = some acc ∧
    (match acc.balance with | some b => (getBalance E a s).1 = b + acc.balanceDelta | none => (getBalance E a s).1 = 0) := by
  unfold getBalance
  dsimp only
  split
  · rename_i b hb
    refine ⟨_, getAcc_get _ _, ?_⟩
    split at hb
    · simp at hb
    · rw [hb]
  · rename_i hb
    split
    · refine ⟨_, getAcc_get _ _, ?_⟩
      have : (s.out.getAcc a).1.balance = none := by
        split at hb
        · rename_i hn; revert hn; unfold OutCtx.getAcc; split <;> simp
        · exact hb
      rw [this]
    · rename_i ua hua
      refine ⟨{ (s.out.getAcc a).1 with balance := some ua.balance }, by simp [OutCtx.setAcc], ?_⟩
      dsimp only
      split
      · rename_i hn
        have : (s.out.getAcc a).1.balanceDelta = 0 := by revert hn; unfold OutCtx.getAcc; split <;> simp
        simp [this]
      · rfl

theorem run_getNonce (s : St χ A) (a : Addr) : Run (StepX E ex back) s (getNonce E a s).2 := by
  unfold getNonce
  refine Run.trans (run_touch s a) ?_
  dsimp only
  split
  · exact .refl _
  · rename_i hn
    split
    · exact .refl _
    · exact .refl _
    · rename_i ua hua
      refine step_out (s := { s with out := (s.out.getAcc a).2.2 }) (.cacheNonce a _ ua (getAcc_get _ _) ?_ ?_)
      · simp only [Bool.not_eq_true, Bool.not_eq_false', Bool.or_eq_true, Bool.and_eq_true, decide_eq_true_eq] at hn
        rcases hn with hn | hn
        · revert hn; unfold OutCtx.getAcc; split <;> simp
        · exact hn.1
      · simp only [acctOf, hua]

/-- the account after its nonce was read holds the nonce (0 if it could not be read) -/
theorem getNonce_acc (s : St χ A) (a : Addr) : ∃ acc, (getNonce E a s).2.out.cur.accounts.get? a = some acc ∧
    acc.nonce = (match (getNonce E a s).1 with | .ok n => n | .error _ => 0) := by
  unfold getNonce
  dsimp only
  split
  · exact ⟨_, getAcc_get _ _, rfl⟩
  · rename_i hn
    have h0 : (s.out.getAcc a).1.nonce = 0 := by
      simp only [Bool.not_eq_true, Bool.not_eq_false', Bool.or_eq_true, Bool.and_eq_true, decide_eq_true_eq] at hn
      rcases hn with hn | hn
      · revert hn; unfold OutCtx.getAcc; split <;> simp
      · exact hn.1
    split
    · exact ⟨_, getAcc_get _ _, h0⟩
    · exact ⟨_, getAcc_get _ _, h0⟩
    · exact ⟨_, by simp [OutCtx.setAcc]; rfl, rfl⟩

/-- a nonce looked up as zero is zero on the chain -/
theorem getNonce_chain (s : St χ A) (a : Addr) (hz : (match (getNonce E a s).1 with | .ok n => n | .error _ => 0) = 0)
    (hv : (getNonce E a s).2.flags.v3 = true) (ua : UserAcct) (hu : acctOf E (getNonce E a s).2 a = some ua) : ua.nonce = 0 := by
  unfold getNonce at hz hv hu
  dsimp only at hz hv hu
  by_cases hn : (!((s.out.getAcc a).2.fst || decide ((s.out.getAcc a).fst.nonce = 0) && s.flags.v3)) = true
  · rw [if_pos hn] at hv hz
    dsimp only at hv hz
    simp only [Bool.not_or, Bool.not_eq_eq_eq_not, Bool.not_true, Bool.and_eq_false_imp, Bool.and_eq_true, decide_eq_true_eq] at hn
    have h0 := hn.2 hz
    rw [h0] at hv
    cases hv
  · rw [if_neg hn] at hu hz
    unfold acctOf at hu
    generalize hx : E.hook.userAccount s.world a = x at hz hu
    cases x with
    | error e =>
      dsimp only at hu
      rw [hx] at hu
      cases hu
    | ok x =>
      cases x with
      | none => dsimp only at hu; rw [hx] at hu; cases hu
      | some ub =>
        dsimp only at hu hz
        rw [hx] at hu
        cases hu
        exact hz

theorem run_increaseNonce (s : St χ A) (a : Addr) {i : CreateInput} (hc : ApiRuns E (.createContract i)) : Run (StepX E ex back) s (increaseNonce E a s) := by
  unfold increaseNonce
  refine Run.trans (run_getNonce s a) ?_
  obtain ⟨acc, h1, h2⟩ := getNonce_acc (E := E) s a
  have hgc := getNonce_chain (E := E) s a
  dsimp only
  generalize getNonce E a s = q at h1 h2 hgc ⊢
  refine run_modAcc q.2 a _ (fun t acc' ht hacc hg => ?_)
  have : acc' = acc := by
    rw [hacc]; unfold OutCtx.getAcc; simp [h1]
  subst this
  have h3 := OutStep.incNonce (E := E) a acc' i hc hg (by
    intro hz hv ua hu
    rw [ht] at hv hu
    exact hgc (by rw [← h2]; exact hz) hv ua hu)
  rw [h2] at h3
  obtain ⟨r, q⟩ := q
  cases r <;> exact h3

theorem run_newAddress (s : St χ A) (a : Addr) : Run (StepX E ex back) s (newAddress E a s).2 := by
  unfold newAddress
  have := run_getNonce (E := E) (ex := ex) (back := back) s a
  generalize getNonce E a s = q at this ⊢
  obtain ⟨r, t⟩ := q
  cases r <;> exact this

theorem run_getCode (s : St χ A) (a : Addr) : Run (StepX E ex back) s (getCode E a s).2 := by
  unfold getCode
  refine Run.trans (run_touch s a) ?_
  dsimp only
  split
  · exact .refl _
  · rename_i hn
    split
    · exact .refl _
    · exact .refl _
    · rename_i ua hua
      split
      · exact .refl _
      · refine step_out (s := { s with out := (s.out.getAcc a).2.2 }) (.cacheCode a _ ua (getAcc_get _ _) ?_ ?_)
        · revert hn; unfold OutCtx.getAcc
          split <;> simp
        · simp only [acctOf, hua]

theorem run_readStorage (s : St χ A) (a : Addr) (k : Bytes) : Run (StepX E ex back) s (readStorage E a k s).2 := by
  unfold readStorage
  refine Run.trans (run_touch s a) ?_
  dsimp only
  split
  · exact .refl _
  · rename_i h
    exact step_out (s := { s with out := (s.out.getAcc a).2.2 }) (.cacheSto a _ k (getAcc_get _ _) h)

theorem readStorage_acc (s : St χ A) (a : Addr) (k : Bytes) : ∃ acc,
    (readStorage E a k s).2.out.cur.accounts.get? a = some acc ∧ acc.storage.get? k = some (readStorage E a k s).1 := by
  unfold readStorage
  dsimp only
  split
  · rename_i h; exact ⟨_, getAcc_get _ _, h⟩
  · exact ⟨_, by simp [OutCtx.setAcc]; rfl, by simp⟩

theorem run_transferValueOnly (s : St χ A) (d snd : Addr) (v : Int) (c : Bool) :
    Run (StepX E ex back) s (transferValueOnly E d snd v c s).2 := by
  unfold transferValueOnly
  split
  · exact .refl _
  · rename_i hv
    have h1 := run_getBalance (E := E) (ex := ex) (back := back) s snd
    obtain ⟨acc, h2, h3⟩ := getBalance_acc (E := E) s snd
    dsimp only
    generalize getBalance E snd s = q at h1 h2 h3 ⊢
    obtain ⟨bal, t⟩ := q
    dsimp only at h1 h2 h3 ⊢
    split
    · exact h1
    · rename_i hb
      split
      · exact h1
      · split
        · exact h1
        · refine h1.trans ?_
          have hs : (t.out.getAcc snd).2.2 = t.out := by unfold OutCtx.getAcc; rw [h2]
          rw [hs]
          refine (run_touch t d).trans ?_
          have hd := getAcc_get t.out d
          have hsnd : ∃ acc', ((t.out.getAcc d).2.2).cur.accounts.get? snd = some acc' ∧ acc' = acc := by
            unfold OutCtx.getAcc
            split
            · exact ⟨acc, h2, rfl⟩
            · rename_i hn
              refine ⟨acc, ?_, rfl⟩
              have : d ≠ snd := by intro he; rw [he, h2] at hn; simp at hn
              simp [AMap.get?_insert_ne _ _ this, h2]
          obtain ⟨acc', h4, rfl⟩ := hsnd
          generalize (t.out.getAcc d).1 = dacc at hd
          generalize (t.out.getAcc d).2.2 = o at hd h4 ⊢
          refine step_out (s := { t with out := o }) (.pay snd d acc' dacc v h4 hd (by omega) ?_)
          cases hbal : acc'.balance with
          | none => rw [hbal] at h3; dsimp only at h3 ⊢; omega
          | some b => rw [hbal] at h3; dsimp only at h3 ⊢; omega

theorem run_transfer (s : St χ A) (d snd : Addr) (gl gk : UInt64) (v : Int) (data : Bytes) (ct : CallType) :
    Run (StepX E ex back) s (transfer E d snd gl gk v data ct s).2 := by
  unfold transfer
  have := run_transferValueOnly (E := E) (ex := ex) (back := back) s d snd v (gl > 0 && ct ≠ .asynchronousCallBack)
  generalize transferValueOnly E d snd v (gl > 0 && ct ≠ .asynchronousCallBack) s = q at this ⊢
  obtain ⟨r, t⟩ := q
  dsimp only at this ⊢
  cases r with
  | some e => exact this
  | none => exact this.trans (run_addTransfer t d _)


/-! ### Gas, breakpoints, failing -/

section
variable {ex' : Executor χ A}
local notation "Sim" => SimAt ex' (StepX E ex back)

theorem run_inst {s : St χ A} {i : Nat} (f : Inst A → Inst A) (h : s.rt.instance_ = some i)
    (hf : InstStep back (s.insts i) (f (s.insts i))) : Run (StepX E ex back) s (s.modInst i f) := .step (.inst s i _ h hf)

theorem sim_useGas (g : UInt64) (s : St χ A) : Sim (useGas g) s := by
  unfold SimAt useGas
  simp only [M.bind_eq, M.bind, M.get, setPointsUsed]
  cases h : s.rt.instance_ with
  | none => exact ⟨s, .refl s, .inl rfl⟩
  | some i =>
    refine run_inst _ h ?_
    simp only [St.pointsUsed, h]
    exact .use _ g

theorem sim_restoreGas (g : UInt64) (s : St χ A) : SimAt ex' (StepA E ex) (restoreGas g) s := by
  unfold restoreGas
  refine sim_get ?_
  split
  · rename_i hg
    unfold SimAt
    simp only [setPointsUsed]
    cases h : s.rt.instance_ with
    | none => exact ⟨s, .refl s, .inl rfl⟩
    | some i =>
      refine run_inst _ h ?_
      simp only [St.pointsUsed, h] at hg ⊢
      exact .restore _ g rfl hg
  · exact sim_pure _

theorem sim_setBreakpoint (b : Breakpoint) (s : St χ A) : Sim (setBreakpoint b) s := by
  unfold SimAt
  simp only [setBreakpoint]
  cases h : s.rt.instance_ with
  | none => exact ⟨s, .refl s, .inl rfl⟩
  | some i => exact run_inst _ h (.bp _ b)

theorem sim_getBreakpoint (s : St χ A) : Sim getBreakpoint s := by
  unfold SimAt
  simp only [getBreakpoint]
  cases h : s.rt.instance_ with
  | none => exact ⟨s, .refl s, .inl rfl⟩
  | some i => exact .refl s

theorem sim_curInst (s : St χ A) : Sim curInst s := by
  unfold SimAt
  simp only [curInst]
  cases h : s.rt.instance_ with
  | none => exact ⟨s, .refl s, .inl rfl⟩
  | some i => exact .refl s

theorem sim_freeGas (g : UInt64) (s : St χ A) : Sim (freeGas g) s := sim_modify (step_out (.refund g))

theorem sim_useGasBounded (g : UInt64) (s : St χ A) : Sim (useGasBounded g) s := by
  unfold useGasBounded
  refine sim_get ?_
  split
  · exact sim_pure _
  · exact sim_bind (sim_useGas g s) (fun _ _ _ _ => sim_pure _)

theorem sim_useGasForAsyncStep (s : St χ A) : Sim useGasForAsyncStep s := sim_get (sim_useGasBounded _ s)

/-- failing changes the output and sets the breakpoint in one step -/
theorem sim_fail (rc : ReturnCode) (m : Bytes) (b : Breakpoint)
    (hb : rc = .executionFailed ∧ b = .executionFailed ∨ rc = .userError ∧ b = .signalError) (s : St χ A) :
    Sim (M.modify (fun s => { s with out := (s.out.setReturnCode rc).setReturnMessage m }) >>= fun _ => setBreakpoint b) s := by
  unfold SimAt
  simp only [M.bind_eq, M.bind, M.modify, setBreakpoint]
  cases h : s.rt.instance_ with
  | none =>
    exact ⟨_, .step (.failNone s rc m h (by rcases hb with hb | hb <;> rw [hb.1] <;> decide)), .inl rfl⟩
  | some i => exact .step (.fail s i rc m b h hb)

theorem sim_failExecution (e : Option Err) (s : St χ A) : Sim (failExecution E e) s :=
  sim_fail _ _ _ (.inl ⟨rfl, rfl⟩) s
theorem sim_signalUserError (m : Bytes) (s : St χ A) : Sim (signalUserError m) s :=
  sim_fail _ _ _ (.inr ⟨rfl, rfl⟩) s
theorem sim_withFault (e : Err) (s : St χ A) : Sim (withFault E e) s :=
  sim_get (sim_bind (sim_useGas _ s) (fun _ t _ _ => sim_failExecution _ t))

theorem sim_memStore (off : Int32) (data : Bytes) (s : St χ A) : Sim (memStore E off data) s := by
  unfold SimAt
  simp only [memStore]
  split
  · rename_i h
    split at h
    · simp only [Prod.mk.injEq, Res.ok.injEq] at h; rw [← h.2]; exact .refl s
    · split at h
      · simp at h
      · rename_i i hi
        split at h
        · simp at h
        · simp only [Prod.mk.injEq, Res.ok.injEq] at h; rw [← h.2]; exact run_inst _ hi (.mem _ _)
  · rename_i h
    split at h
    · simp at h
    · split at h
      · simp only [Prod.mk.injEq] at h; exact ⟨s, .refl s, .inl h.2.symm⟩
      · rename_i i hi
        split at h
        · simp only [Prod.mk.injEq] at h; exact ⟨s, .refl s, .inl h.2.symm⟩
        · simp at h
  · rename_i h
    split at h
    · simp at h
    · split at h
      · simp at h
      · rename_i i hi
        split at h <;> simp at h

/-! ### Storage -/

theorem sim_useKeyGas (k : Bytes) (s : St χ A) : Sim (useKeyGas k) s := by
  unfold useKeyGas
  refine sim_get ?_
  split
  · exact sim_useGas _ _
  · exact sim_pure _

theorem sim_getStorageUnmetered (k : Bytes) (s : St χ A) : Sim (getStorageUnmetered E k) s := run_readStorage s _ k

theorem sim_getStorage (k : Bytes) (s : St χ A) : Sim (getStorage E k) s :=
  sim_bind (sim_useKeyGas k s) (fun _ t _ _ => sim_bind (sim_getStorageUnmetered k t) (fun _ t _ _ =>
    sim_get (sim_bind (sim_useGas _ t) (fun _ _ _ _ => sim_pure _))))

theorem sim_getStorageFromAddress (a : Addr) (k : Bytes) (s : St χ A) : Sim (getStorageFromAddress E a k) s := by
  unfold getStorageFromAddress
  refine sim_bind (sim_useKeyGas k s) (fun _ t _ _ => sim_get ?_)
  split
  · exact sim_pure _
  · dsimp only
    split
    · exact sim_bind (sim_gets _) (fun _ t _ _ => sim_bind (sim_useGas _ t) (fun _ _ _ _ => sim_pure _))
    · exact sim_bind (sim_lift (run_readStorage _ _ _)) (fun _ t _ _ => sim_bind (sim_useGas _ t) (fun _ _ _ _ => sim_pure _))

theorem sim_storageGas (o v : Bytes) (s : St χ A) : Sim (storageGas o v) s := by
  unfold storageGas
  refine sim_get ?_
  dsimp only
  repeat' split
  · exact sim_bind (sim_useGas _ s) (fun _ _ _ _ => sim_pure _)
  · exact sim_bind (sim_freeGas _ s) (fun _ _ _ _ => sim_pure _)
  · exact sim_bind (sim_useGas _ s) (fun _ _ _ _ => sim_pure _)
  · exact sim_bind (sim_useGas _ s) (fun _ t _ _ => sim_bind (sim_freeGas _ t) (fun _ _ _ _ => sim_pure _))
  · exact sim_pure _

/-- using gas changes instances only -/
theorem useGas_ok {g : UInt64} {s t : St χ A} {u : Unit} (h : useGas g s = (.ok u, t)) :
    t = s.spend g ∧ ∃ i, s.rt.instance_ = some i := by
  cases hi : s.rt.instance_ with
  | none => simp only [useGas, M.bind_eq, M.bind, M.get, setPointsUsed, hi] at h; simp at h
  | some i => rw [useGas_run s g hi] at h; simp only [Prod.mk.injEq] at h; exact ⟨h.2.symm, i, rfl⟩

theorem useKeyGas_ok {k : Bytes} {s t : St χ A} {u : Unit} (h : useKeyGas k s = (.ok u, t)) :
    t = s ∨ ∃ g, t = s.spend g := by
  simp only [useKeyGas, M.bind_eq, M.bind, M.get] at h
  split at h
  · exact .inr ⟨_, (useGas_ok h).1⟩
  · simp only [M.pure_eq, M.pure, Prod.mk.injEq] at h; exact .inl h.2.symm

/-- `setStorage` after its checks -/
def setStorageCore (E : Env χ A) (key value : Bytes) : M χ A (StorageStatus × Option Err) := do
  useKeyGas key
  let old ← getStorageUnmetered E key
  if old = value then do
    let s ← M.get
    useGas (mulU64 s.met.sched.dataCopyPerByte (UInt64.ofNat value.length))
    pure (.unchanged, none)
  else do
    M.modify (fun s => writeStorage s.sto.addr key value s)
    let st ← storageGas old value
    pure (st, none)

theorem sim_setStorageCore (k v : Bytes) (s : St χ A) (hro : s.rt.cur.readOnly = false)
    (hres : isReservedKey E k = false) (hprot : isProtectedKey k = true → s.sto.protect = false ∨ vmKey k) :
    Sim (setStorageCore E k v) s := by
  unfold setStorageCore
  refine sim_bind (sim_useKeyGas k s) (fun _ t ht _ => ?_)
  refine sim_bind (sim_getStorageUnmetered k t) (fun old u hu _ => ?_)
  split
  · exact sim_get (sim_bind (sim_useGas _ u) (fun _ _ _ _ => sim_pure _))
  · refine sim_modify_bind ?_ (sim_bind (sim_storageGas _ _ _) (fun _ _ _ _ => sim_pure _))
    have hst : t.rt = s.rt ∧ t.sto = s.sto := by
      rcases useKeyGas_ok ht with rfl | ⟨g, rfl⟩ <;> exact ⟨rfl, rfl⟩
    have hu' : u = (readStorage E t.sto.addr k t).2 ∧ old = (readStorage E t.sto.addr k t).1 := by
      simp only [getStorageUnmetered, M.lift, Prod.mk.injEq, Res.ok.injEq] at hu
      exact ⟨hu.2.symm, hu.1.symm⟩
    have hrt : u.rt = t.rt ∧ u.sto = t.sto := by
      rw [hu'.1]; unfold readStorage; dsimp only; split <;> exact ⟨rfl, rfl⟩
    obtain ⟨acc, ha, hk⟩ := readStorage_acc (E := E) t t.sto.addr k
    rw [← hu'.1] at ha
    rw [← hu'.2] at hk
    have hmod : writeStorage u.sto.addr k v u = { u with out := { u.out with cur := (u.out.cur.put u.sto.addr
        { acc with storage := acc.storage.insert k v }) } } := by
      simp only [writeStorage, OutCtx.modAcc, OutCtx.setAcc, OutCtx.getAcc, VMOutput.put, hrt.2, ha]
    rw [hmod]
    refine step_out (.write acc k v old (by rw [hrt.2]; exact ha) hk ?_ hres ?_)
    · rw [hrt.1, hst.1]; exact hro
    · intro hp; rw [hrt.2, hst.2]; exact hprot hp

theorem sim_setStorage (k v : Bytes) (s : St χ A) : Sim (setStorage E k v) s := by
  unfold setStorage
  refine sim_get (sim_ite (fun _ => sim_pure _) (fun hro => sim_ite (fun _ => sim_pure _) (fun hres =>
    sim_ite (fun _ => sim_pure _) (fun hprot => ?_))))
  refine sim_setStorageCore k v s (by simpa using hro) (by simpa using hres) (fun hp => .inl ?_)
  simpa [hp] using hprot

/-! The storage protection flag is read by the checks only. -/

/-- the state with another protection flag -/
def St.prot (s : St χ A) (b : Bool) : St χ A := { s with sto := { s.sto with protect := b } }

/-- a method that neither reads nor changes the protection flag -/
def ProtFree {α : Type} (m : M χ A α) : Prop := ∀ s b, m (s.prot b) = ((m s).1, (m s).2.prot b)

theorem protFree_pure {α : Type} (a : α) : ProtFree (pure a : M χ A α) := fun _ _ => rfl
theorem protFree_bind {α β : Type} {m : M χ A α} {f : α → M χ A β} (h1 : ProtFree m) (h2 : ∀ a, ProtFree (f a)) :
    ProtFree (m >>= f) := by
  intro s b
  simp only [M.bind_eq, M.bind, h1 s b]
  cases h : (m s).1 with
  | ok a => rw [show m s = (Res.ok a, (m s).2) from Prod.ext h rfl]; exact h2 a _ b
  | panic => rw [show m s = (Res.panic, (m s).2) from Prod.ext h rfl]
  | oof => rw [show m s = (Res.oof, (m s).2) from Prod.ext h rfl]
theorem protFree_get {β : Type} {f : St χ A → M χ A β} (h1 : ∀ s b, f (s.prot b) = f s) (h2 : ∀ s, ProtFree (f s)) :
    ProtFree (M.get >>= f) := by
  intro s b
  show f (s.prot b) (s.prot b) = ((f s s).1, (f s s).2.prot b)
  rw [h1, h2 s]
theorem protFree_useGas (g : UInt64) : ProtFree (useGas g : M χ A Unit) := by
  intro s b
  simp only [useGas, M.bind_eq, M.bind, M.get, setPointsUsed]
  have : (s.prot b).rt = s.rt := rfl
  rw [this]
  split <;> rfl
theorem protFree_freeGas (g : UInt64) : ProtFree (freeGas g : M χ A Unit) := fun _ _ => rfl

theorem protFree_setStorageCore (k v : Bytes) : ProtFree (setStorageCore E k v) := by
  unfold setStorageCore
  refine protFree_bind ?_ (fun _ => protFree_bind ?_ (fun old => ?_))
  · unfold useKeyGas
    refine protFree_get (fun _ _ => rfl) (fun s => ?_)
    split
    · exact protFree_useGas _
    · exact protFree_pure _
  · intro s b
    simp only [getStorageUnmetered, M.lift, readStorage]
    have : (s.prot b).out = s.out := rfl
    have h2 : (s.prot b).sto.addr = s.sto.addr := rfl
    rw [this, h2]
    split <;> rfl
  · split
    · exact protFree_get (fun _ _ => rfl) (fun s => protFree_bind (protFree_useGas _) (fun _ => protFree_pure _))
    · refine protFree_bind (fun _ _ => rfl) (fun _ => protFree_bind ?_ (fun _ => protFree_pure _))
      unfold storageGas
      refine protFree_get (fun _ _ => rfl) (fun s => ?_)
      dsimp only
      repeat' split
      · exact protFree_bind (protFree_useGas _) (fun _ => protFree_pure _)
      · exact protFree_bind (protFree_freeGas _) (fun _ => protFree_pure _)
      · exact protFree_bind (protFree_useGas _) (fun _ => protFree_pure _)
      · exact protFree_bind (protFree_useGas _) (fun _ => protFree_bind (protFree_freeGas _) (fun _ => protFree_pure _))
      · exact protFree_pure _

/-- an executor whose calls always return -/
def Executor.idle : Executor χ A := ⟨fun _ s => (.ok ⟨{}, none, none⟩, s), fun _ s => (.ok none, s)⟩

/-- an executor whose calls never return -/
def Executor.halt : Executor χ A := ⟨fun _ s => (.oof, s), fun _ s => (.oof, s)⟩
theorem halt_dest {i : CallInput} {s t : St χ A} {r : DestResult} (h : (Executor.halt : Executor χ A).dest i s = (.ok r, t)) : False := by
  simp [Executor.halt] at h
theorem halt_same {i : CallInput} {s t : St χ A} {r : Option Err} (h : (Executor.halt : Executor χ A).same i s = (.ok r, t)) : False := by
  simp [Executor.halt] at h

theorem not_bad_idle {r : Res Unit} {s t : St χ A} (hr : r ≠ .ok ()) : ¬ NestedBad Executor.idle r s t := by
  rintro (⟨_, h⟩ | ⟨_, h⟩)
  · simp only [Executor.idle, Prod.mk.injEq] at h; exact hr h.1.symm
  · simp only [Executor.idle, Prod.mk.injEq] at h; exact hr h.1.symm

/-- a protected write, without the flag -/
theorem setProtectedStorage_run (k v : Bytes) (s : St χ A) : setProtectedStorage E k v s =
    (if s.rt.cur.readOnly then (.ok (.unchanged, none), s.prot true)
     else if isReservedKey E k then (.ok (.unchanged, some .storeElrondReservedKey), s.prot true)
     else match setStorageCore E k v s with
       | (.ok r, t) => (.ok r, t.prot true)
       | (.panic, t) => (.panic, t.prot true)
       | (.oof, t) => (.oof, t.prot false)) := by
  have hro : (s.prot false).rt = s.rt := rfl
  have hset : setStorage E k v (s.prot false) =
      (if s.rt.cur.readOnly then (.ok (.unchanged, none), s.prot false)
       else if isReservedKey E k then (.ok (.unchanged, some .storeElrondReservedKey), s.prot false)
       else ((setStorageCore E k v s).1, (setStorageCore E k v s).2.prot false)) := by
    rw [← protFree_setStorageCore (E := E) k v s false]
    show (if (s.prot false).rt.cur.readOnly then _ else _ : M χ A _) (s.prot false) = _
    rw [hro]
    split
    · rfl
    · split
      · rfl
      · split
        · rename_i h; simp [St.prot] at h
        · rfl
  have h0 : setProtectedStorage E k v s = M.deferred (setStorage E k v) (fun r => do
    M.modify (fun s => { s with sto := { s.sto with protect := true } })
    match r with
    | some r => pure r
    | none => M.panic) (s.prot false) := rfl
  rw [h0]
  unfold M.deferred
  rw [hset]
  by_cases h1 : s.rt.cur.readOnly = true
  · simp only [h1, if_true]; rfl
  · by_cases h2 : isReservedKey E k = true
    · simp only [h1, h2, if_true]; rfl
    · simp only [h1, h2]
      generalize setStorageCore E k v s = q
      obtain ⟨r, t⟩ := q
      cases r <;> rfl

theorem sim_setProtectedStorage (k v : Bytes) (hk : vmKey k) (s : St χ A) : Sim (setProtectedStorage E k v) s := by
  have hp : ∀ t : St χ A, Run (StepX E ex back) t (t.prot true) := fun t => .step (.protect t)
  unfold SimAt
  rw [setProtectedStorage_run]
  by_cases h1 : s.rt.cur.readOnly = true
  · simp only [h1, if_true]; exact hp s
  · by_cases h2 : isReservedKey E k = true
    · simp only [h1, h2, if_true]; exact hp s
    · simp only [h1, h2]
      have h := sim_setStorageCore (E := E) (ex := ex) (back := back) (ex' := Executor.idle) k v s (by simpa using h1) (by simpa using h2)
        (fun _ => .inr hk)
      unfold SimAt at h
      split at h
      · rename_i he; rw [he]; exact h.trans (hp _)
      · rename_i t he
        rw [he]
        obtain ⟨t0, h1, h2⟩ := h
        rcases h2 with rfl | h2
        · exact ⟨_, h1.trans (hp _), .inl rfl⟩
        · exact absurd h2 (not_bad_idle (by simp))
      · obtain ⟨t0, h1, h2⟩ := h
        exact absurd h2 (not_bad_idle (by simp))

/-! ### Asynchronous calls, deployment, tokens -/

theorem sim_executeAsyncCall (a : Addr) (d v : Bytes) (s : St χ A) : Sim (executeAsyncCall a d v) s := by
  unfold executeAsyncCall
  have hl : ∀ (lock : UInt64) (u : St χ A), Sim (do
      M.modify (fun s => s.setAsyncCallInfo
        { destination := a, data := d, gasLimit := s.gasLeft, gasLocked := lock, valueBytes := v })
      setBreakpoint .asyncCall
      pure (none : Option Err)) u := fun lock u =>
    sim_modify_bind (.step (.rt u _ (.asyncCall _))) (sim_bind (sim_setBreakpoint _ _) (fun _ _ _ _ => sim_pure _))
  refine sim_bind (sim_useGasForAsyncStep s) (fun e t _ _ => ?_)
  cases e with
  | some e => exact sim_pure _
  | none =>
    refine sim_bind (sim_bind (sim_curInst t) (fun _ _ _ _ => sim_pure _)) (fun _ t _ _ => sim_get ?_)
    dsimp only
    split
    · refine sim_bind (sim_useGasBounded _ t) (fun e t _ _ => ?_)
      cases e with
      | some e => exact sim_pure _
      | none => exact hl _ _
    · exact hl _ _

theorem run_addAsyncContextCall (hE : GroupApi E) (id : Bytes) (c : AsyncGeneratedCall) (s : St χ A) :
    Run (StepX E ex back) s (addAsyncContextCall id c s) := .step (.rt s _ (.asyncCtx _ hE))

theorem run_setAsyncContextCallback (hE : GroupApi E) (id cb : Bytes) (s : St χ A) :
    Run (StepX E ex back) s (setAsyncContextCallback id cb s).2 := by
  unfold setAsyncContextCallback
  dsimp only
  split
  · exact .refl _
  · exact .step (.rt s _ (.asyncCtx _ hE))

theorem run_deductInitialGas {S : St χ A → St χ A → Prop} (n : Nat) (b c : UInt64) (s : St χ A)
    (hS : ∀ cost, cost ≤ s.rt.cur.vmInput.gasProvided → S s { s with met := { s.met with cur := { s.met.cur with
      initialCost := cost, gasForExecution := s.rt.cur.vmInput.gasProvided - cost } } }) : SimAt ex' S (deductInitialGas n b c) s := by
  unfold SimAt
  simp only [deductInitialGas]
  split
  · rename_i h
    split at h
    · simp only [Prod.mk.injEq] at h; rw [← h.2]; exact .refl s
    · rename_i hc
      simp only [Prod.mk.injEq] at h; rw [← h.2]
      refine .step (hS _ ?_)
      simpa [UInt64.not_lt] using hc
  · rename_i h
    split at h <;> simp at h
  · rename_i h
    split at h <;> simp at h

theorem sim_deductForIndirectDeployment (c : Bytes) (i : CreateInput) (hc : ApiRuns E (.createContract i)) (s : St χ A) :
    Sim (deductForIndirectDeployment c) s :=
  sim_get (run_deductInitialGas _ _ _ s fun cost h => .deduct s cost i hc h)

theorem sim_processBuiltin (i : CallInput) (s : St χ A) : Sim (processBuiltin E i) s :=
  sim_lift (.step (.world s _ (.builtin i)))

theorem sim_executeEsdtTransfer (d snd : Addr) (tok : Bytes) (n : UInt64) (v : Int) (ct : CallType) (s : St χ A) :
    Sim (executeEsdtTransfer E d snd tok n v ct) s := by
  unfold executeEsdtTransfer
  refine sim_get ?_
  dsimp only
  refine sim_bind (sim_processBuiltin _ s) (fun r t _ _ => ?_)
  cases r with
  | error e => exact sim_pure _
  | ok b =>
    dsimp only
    split
    · exact sim_pure _
    · split
      · refine sim_get ?_
        split
        · exact sim_pure _
        · exact sim_bind (sim_useGas _ _) (fun _ _ _ _ => sim_pure _)
      · exact sim_pure _

/-- the output of a token transfer is that of a built-in function -/
theorem executeEsdtTransfer_from {d snd : Addr} {tok : Bytes} {n : UInt64} {v : Int} {ct : CallType} {s t : St χ A} {out : VMOutput}
    {g : UInt64} (h : executeEsdtTransfer E d snd tok n v ct s = (.ok (.ok (out, g)), t)) :
    ∃ w i b, (E.hook.processBuiltIn w i).1 = .ok b ∧ out = b.out := by
  simp only [executeEsdtTransfer, M.bind_eq, M.bind, M.get, processBuiltin, M.lift] at h
  generalize hq : E.hook.processBuiltIn s.world _ = q at h
  obtain ⟨r, w⟩ := q
  cases r with
  | error e => simp [M.pure_eq, M.pure] at h
  | ok b =>
    refine ⟨_, _, b, congrArg Prod.fst hq, ?_⟩
    dsimp only at h
    split at h
    · simp [M.pure_eq, M.pure] at h
    split at h
    · simp only [M.bind, M.get] at h
      split at h
      · simp [M.pure_eq, M.pure] at h
      · simp only [M.bind] at h
        split at h <;> simp [M.pure_eq, M.pure] at h
        exact h.1.1.symm
    · simp only [M.pure_eq, M.pure, Prod.mk.injEq, Res.ok.injEq, Except.ok.injEq] at h
      exact h.1.1.symm

theorem sim_transferESDT (d snd : Addr) (tok : Bytes) (n : UInt64) (v : Int) (ci : Option CallInput) (s : St χ A) :
    Sim (transferESDT E d snd tok n v ci) s := by
  unfold transferESDT
  refine sim_get ?_
  dsimp only
  refine sim_bind (sim_executeEsdtTransfer _ _ _ _ _ _ s) (fun r t hr _ => ?_)
  cases r with
  | error e => exact sim_pure _
  | ok p =>
    obtain ⟨out, consumed⟩ := p
    obtain ⟨w, bi, b, hb, hout⟩ := executeEsdtTransfer_from hr
    subst hout
    dsimp only
    have fin : ∀ (tr : OutTransfer) (rem : UInt64) (u : St χ A), Sim (do
        M.modify (addTransfer d tr)
        M.modify (fun s => { s with out := { s.out with cur := { s.out.cur with logs := s.out.cur.logs ++ b.out.logs } } })
        pure (.ok rem : Except Err UInt64)) u := fun tr rem u =>
      sim_modify_bind (run_addTransfer u d tr) (sim_modify_bind (step_out (.logs w bi b hb)) (sim_pure _))
    refine sim_ite (fun _ => ?_) (fun _ => ?_)
    · exact sim_pure _
    · refine sim_get ?_
      refine sim_ite (fun _ => ?_) (fun _ => ?_)
      · exact sim_pure _
      · refine sim_ite (fun _ => ?_) (fun _ => ?_)
        · exact sim_bind (sim_useGas _ _) (fun _ t _ _ => fin _ _ _)
        · exact fin _ _ _

end


/-! ### Methods with nested calls -/

section
local notation "Sim" => SimAt ex (StepX E ex back)

theorem sim_dest (hk : KeepsInst ex) (i : CallInput) (s : St χ A) : Sim (ex.dest i) s := by
  unfold SimAt
  split
  · rename_i r t h; exact .step (.dest s t i r h (hk.dest _ _ _ _ h))
  · rename_i t h; exact ⟨s, .refl s, .inr (.inl ⟨i, by rw [h]⟩)⟩
  · rename_i t h; exact ⟨s, .refl s, .inl ⟨i, by rw [h]⟩⟩

theorem sim_same (hk : KeepsInst ex) (i : CallInput) (s : St χ A) : Sim (ex.same i) s := by
  unfold SimAt
  split
  · rename_i r t h; exact .step (.same s t i r h (hk.same _ _ _ _ h))
  · rename_i t h; exact ⟨s, .refl s, .inr (.inr ⟨i, by rw [h]⟩)⟩
  · rename_i t h; exact ⟨s, .refl s, .inr ⟨i, by rw [h]⟩⟩

theorem newAddress_newAt {a b : Addr} {s : St χ A} (h : (newAddress E a s).1 = .ok b)
    (hx : accountExists E (newAddress E a s).2 b = false) : NewAt E (newAddress E a s).2 b := by
  refine ⟨?_, fun ua hu => by simp [accountExists, acctOf, hu] at hx⟩
  unfold newAddress at h ⊢
  generalize getNonce E a s = q at h ⊢
  obtain ⟨r, t⟩ := q
  cases r with
  | error e => simp at h
  | ok n => exact ⟨a, _, h⟩

theorem sim_createNewContract (hk : KeepsInst ex) (i : CreateInput) (hc : ApiRuns E (.createContract i)) (s : St χ A) :
    Sim (createNewContract E ex i) s := by
  unfold createNewContract
  refine sim_bind (sim_deductForIndirectDeployment _ i hc s) (fun r t _ _ => ?_)
  cases r with
  | some e => exact sim_pure _
  | none =>
    refine sim_get ?_
    split
    · exact sim_pure _
    · rename_i hro
      refine sim_lift_bind (run_newAddress _ _) ?_
      have hrt : (newAddress E i.vm.caller t).2.rt = t.rt := by
        have : (getNonce E i.vm.caller t).2.rt = t.rt := by
          unfold getNonce; dsimp only; split
          · rfl
          · split <;> rfl
        unfold newAddress
        generalize getNonce E i.vm.caller t = q at this ⊢
        obtain ⟨r, q⟩ := q
        cases r <;> exact this
      have hdep := fun b => newAddress_newAt (E := E) (a := i.vm.caller) (b := b) (s := t)
      generalize newAddress E i.vm.caller t = q at hrt hdep ⊢
      obtain ⟨r, u⟩ := q
      dsimp only at hrt hdep ⊢
      cases r with
      | error e => exact sim_pure _
      | ok addr =>
        refine sim_get ?_
        split
        · exact sim_pure _
        · rename_i hex
          refine sim_modify_bind (.step (.deploy u _ i hc (by rw [hrt]; simpa using hro) (by simpa using hex) (hdep _ rfl (by simpa using hex)))) ?_
          refine sim_modify_bind (.step (.verify _ true)) ?_
          have hn : NewAt E u addr := hdep _ rfl (by simpa using hex)
          have hro : u.rt.cur.readOnly = false := by rw [hrt]; simpa using hro
          generalize hs2 : ({ ({ u with out := u.out.deployCode _ } : St χ A) with rt := { u.rt with verifyCode := true } } : St χ A) = s2
          have hn : NewAt E s2 addr := by rw [← hs2]; exact hn
          have hro : s2.rt.cur.readOnly = false := by rw [← hs2]; exact hro
          have hd := sim_dest (E := E) (back := back) hk { vm := i.vm, recipient := addr, function := initName, allowInit := true } s2
          cases hw : ex.dest { vm := i.vm, recipient := addr, function := initName, allowInit := true } s2 with
          | mk r w =>
            cases r with
            | ok q =>
              cases he : q.err with
              | some e =>
                refine sim_of_ok (a := .error e) (t := { w with out := w.out.deleteAcc addr }) ?_ (.step (.undo s2 w _ q addr i hw
                  (hk.dest _ _ _ _ hw) hc hn (by rw [hk.cur _ _ _ _ hw]; exact hro)))
                simp only [M.bind_eq, M.bind, hw, he]
                rfl
              | none =>
                refine sim_bind hd (fun r w' hw' _ => ?_)
                rw [hw] at hw'
                simp only [Prod.mk.injEq, Res.ok.injEq] at hw'
                rw [← hw'.1, he]
                exact sim_modify_bind (run_increaseNonce _ _ hc) (sim_pure _)
            | panic => exact sim_bind hd (fun r w' hw' _ => by rw [hw] at hw'; simp at hw')
            | oof => exact sim_bind hd (fun r w' hw' _ => by rw [hw] at hw'; simp at hw')

theorem big_getOne_stack (b : BigCtx) (h : Int32) : (b.getOne h).2.stack = b.stack := by
  unfold BigCtx.getOne; split <;> rfl
theorem big_put_stack (b : BigCtx) (v : Int64) : (b.put v).2.stack = b.stack := rfl

theorem sim_runCmd (hk : KeepsInst ex) (c : Cmd) (hc : ApiRuns E c) (s : St χ A) :
    Sim (runCmd E ex c) s := by
  cases c with
  | useGas n => exact sim_useGas n s
  | memStore off data => exact sim_memStore off data s
  | failExecution e => exact sim_failExecution (some e) s
  | signalUserError m => exact sim_signalUserError m s
  | executeAsyncCall a d v => exact sim_executeAsyncCall a d v s
  | addAsyncContextCall id c => exact sim_modify (run_addAsyncContextCall ⟨id, .inl ⟨c, hc⟩⟩ id c s)
  | setAsyncContextCallback id cb => exact sim_lift (run_setAsyncContextCallback ⟨id, .inr ⟨cb, hc⟩⟩ id cb s)
  | getBalance a => exact sim_lift (run_getBalance s a)
  | getCode a => exact sim_lift (run_getCode s a)
  | getStorage k => exact sim_getStorage k s
  | getStorageUnmetered k => exact sim_getStorageUnmetered k s
  | getStorageFromAddress a k => exact sim_getStorageFromAddress a k s
  | setStorage k v => exact sim_setStorage k v s
  | setTimeLock k v => exact sim_setProtectedStorage _ v ⟨k, .inl rfl⟩ s
  | finish d => exact sim_modify (step_out (.finish d))
  | writeLog a t d =>
    refine sim_modify ?_
    unfold OutCtx.writeLog
    split
    · exact .refl s
    · rename_i h; exact step_out (.log _ (by simpa using h))
  | transfer d sn gl gk v data ct => exact sim_lift (run_transfer s d sn gl gk v data ct)
  | transferESDT d sn tok n v ci => exact sim_transferESDT d sn tok n v ci s
  | bigGet h => exact sim_lift (.step (.big s _ (big_getOne_stack _ _)))
  | bigSet h v => exact sim_modify (.step (.big s _ rfl))
  | bigPut v => exact sim_lift (.step (.big s _ (big_put_stack _ _)))
  | executeOnDest i => exact sim_bind (sim_dest hk i s) (fun _ _ _ _ => sim_pure _)
  | executeOnSame i => exact sim_same hk i s
  | executeReadOnly i =>
    exact sim_modify_bind (.step (.rt s _ (.readOnly true i hc))) (sim_bind (sim_same hk i _) (fun _ t _ _ =>
      sim_modify_bind (.step (.rt t _ (.readOnly false i hc))) (sim_pure _)))
  | createContract i => exact sim_createNewContract hk i hc s
  | revertSnapshot n => exact sim_modify (.step (.world s _ (.revert n)))
  | outOfGas => exact sim_setBreakpoint _ s

theorem sim_interp (hk : KeepsInst ex) {α : Type} (p : Free χ A α) (hc : ∀ c, MayRun c p → ApiRuns E c) (s : St χ A) :
    Sim (interp E ex p) s := by
  induction p generalizing s with
  | pure a => exact sim_pure a
  | ask k ih => exact ih s (fun c h => hc c ⟨s, h⟩) s
  | op c k ih => exact sim_bind (sim_runCmd hk c (hc c (.inl rfl)) s) (fun r t _ _ => ih r (fun c h => hc c (.inr ⟨r, h⟩)) t)
  | panic => exact sim_panic

/-- steps keep the current instance -/
theorem StepX.inst_eq {s t : St χ A} (h : StepX E ex back s t) : t.rt.instance_ = s.rt.instance_ := by
  cases h with
  | dest _ _ _ _ h => exact h
  | same _ _ _ _ h => exact h
  | undo _ _ _ _ _ _ h => exact h
  | rt _ h => rfl
  | _ => rfl

theorem Run.inst_eq {s t : St χ A} (h : Run (StepX E ex back) s t) : t.rt.instance_ = s.rt.instance_ :=
  h.rel (R := fun s t => t.rt.instance_ = s.rt.instance_) (fun _ => rfl) (fun _ _ _ h1 h2 => h2.trans h1)
    (fun _ _ h => h.inst_eq)

theorem sim_runProg (hk : KeepsInst ex) (i : Nat) (p : Prog A) (s : St χ A) (hi : s.rt.instance_ = some i) :
    Sim (runProg E ex i p) s := by
  induction p generalizing s with
  | ret => exact sim_pure _
  | trap => exact sim_pure _
  | burn n k ih =>
    unfold runProg
    refine sim_get (sim_modify_bind (run_inst _ hi (.burn _ n)) ?_)
    split
    · exact sim_modify_bind (run_inst _ hi (.bp _ _)) (sim_pure _)
    · exact ih _ hi
  | call a k ih =>
    unfold runProg
    refine sim_bind (sim_interp hk _ (fun _ h => ⟨a, h⟩) s) (fun r t _ hr => sim_get ?_)
    split
    · exact sim_pure _
    · exact ih r t (hr.inst_eq.trans hi)
  | load off len k ih =>
    unfold runProg
    refine sim_get ?_
    dsimp only
    split
    · exact ih _ s hi
    · exact sim_pure _
  | store off bs k ih =>
    unfold runProg
    refine sim_get ?_
    split
    · exact sim_modify_bind (run_inst _ hi (.mem _ _)) (ih _ hi)
    · exact sim_pure _

end

end Arwen
