import Verif.Host.Inv
/-
At the instance limit no contract starts; so the depth of nested calls is bounded and the recursion fuel of the model is never
used up.
-/
namespace Arwen
variable {χ A : Type} {E : Env χ A} {ex ex' : Executor χ A} {s : St χ A}

theorem startInstance_limit (c : Bytes) (g : UInt64) (b : Bool) (s : St χ A) (h : E.maxInstances ≤ s.rt.instanceStack.length) :
    startInstance E c g b s = (.ok (some .maxInstancesReached), { s with rt := { s.rt with instance_ := none } }) := by
  unfold startInstance
  rw [get_bind, if_pos h]
  rfl

/-- `m` and `m'` do the same from `s` and do not succeed -/
def Refused (m m' : M χ A (Option Err)) (s : St χ A) : Prop := m s = m' s ∧ ∀ t, m s ≠ (.ok none, t)

theorem refused_some (e : Err) : Refused (pure (some e)) (pure (some e)) s := ⟨rfl, by intro t h; simp [M.pure_eq, M.pure] at h⟩

theorem refused_bind {α : Type} {m : M χ A α} {f f' : α → M χ A (Option Err)}
    (h : ∀ a t, m s = (.ok a, t) → Refused (f a) (f' a) t) : Refused (m >>= f) (m >>= f') s := by
  simp only [Refused, M.bind_eq, M.bind]
  generalize hq : m s = q at h
  obtain ⟨r, t⟩ := q
  cases r with
  | ok a => exact h a t rfl
  | panic => exact ⟨rfl, by simp⟩
  | oof => exact ⟨rfl, by simp⟩

theorem refused_get {f f' : St χ A → M χ A (Option Err)} (h : Refused (f s) (f' s) s) :
    Refused (M.get >>= f) (M.get >>= f') s := h

theorem refused_lift {α : Type} {g : St χ A → α × St χ A} {f f' : α → M χ A (Option Err)}
    (h : Refused (f (g s).1) (f' (g s).1) (g s).2) : Refused (M.lift g >>= f) (M.lift g >>= f') s := h

theorem refused_modify {g : St χ A → St χ A} {f f' : Unit → M χ A (Option Err)}
    (h : Refused (f ()) (f' ()) (g s)) : Refused (M.modify g >>= f) (M.modify g >>= f') s := h

theorem refused_deploySteps (d : CodeDeployInput) (h : E.maxInstances ≤ s.rt.instanceStack.length) :
    Refused (deploySteps E ex d) (deploySteps E ex' d) s := by
  unfold deploySteps
  refine refused_bind (fun a t he => ?_)
  have hk : t.rt.instanceStack = s.rt.instanceStack := by have := deductForDirect_rt d.code s; rw [he] at this; rw [this]
  cases a with
  | some e => exact refused_modify (refused_some e)
  | none =>
    refine refused_modify (refused_get (refused_bind (fun a u he => ?_)))
    rw [startInstance_limit _ _ _ _ (by rw [← hk] at h; exact h)] at he
    simp only [Prod.mk.injEq, Res.ok.injEq] at he
    rw [← he.1]
    exact refused_some _

theorem refused_executeUpgrade (i : CallInput) (h : E.maxInstances ≤ s.rt.instanceStack.length) :
    Refused (executeUpgrade E ex i) (executeUpgrade E ex' i) s := by
  unfold executeUpgrade
  refine refused_get ?_
  split
  · exact refused_some _
  · refine refused_bind (fun a t he => ?_)
    cases a with
    | none => exact refused_some _
    | some c =>
      have hk : t.rt.instanceStack = s.rt.instanceStack := by
        simp only [extractUpgrade] at he
        split at he <;> · simp only [Prod.mk.injEq] at he; rw [← he.2]
      have hd := refused_deploySteps (E := E) (ex := ex) (ex' := ex') { code := c.1, metadata := c.2, address := i.recipient, deployer := i.vm.caller } (by rw [← hk] at h; exact h)
      refine ⟨?_, ?_⟩
      · simp only [M.bind_eq, M.bind, hd.1]
      · intro v hv
        obtain ⟨c1, c2⟩ := c
        rcases bind_ok hv with ⟨a, u, h1, hv⟩ | ⟨_, hv⟩ | ⟨_, hv⟩
        · cases a with
          | none => exact hd.2 _ h1
          | some e => simp [M.pure_eq, M.pure] at hv
        · simp at hv
        · simp at hv

/-- At the limit nothing is run, whatever nested calls would do. -/
theorem refused_execute (i : CallInput) (h : E.maxInstances ≤ s.rt.instanceStack.length) :
    Refused (execute E ex i) (execute E ex' i) s := by
  unfold execute
  refine refused_get ?_
  split
  · exact refused_some _
  · refine refused_bind (fun a t he => ?_)
    have h : E.maxInstances ≤ t.rt.instanceStack.length := by
      rw [(keeps_of_idle (E := E) (sim_useGas _ s) he).2]; exact h
    split
    · exact refused_executeUpgrade i h
    · refine refused_lift ?_
      have h : E.maxInstances ≤ (getSCCode E t).2.rt.instanceStack.length := by rw [getSCCode_rt]; exact h
      generalize getSCCode E t = q at h
      obtain ⟨r, u⟩ := q
      cases r with
      | error e => exact refused_some _
      | ok code =>
        refine refused_bind (fun a v he => ?_)
        have hk : v.rt.instanceStack = u.rt.instanceStack := by have := deductForExecution_rt code u; rw [he] at this; rw [this]
        cases a with
        | some e => exact refused_some _
        | none =>
          refine refused_get (refused_bind (fun a w he => ?_))
          rw [startInstance_limit _ _ _ _ (by rw [← hk] at h; exact h)] at he
          simp only [Prod.mk.injEq, Res.ok.injEq] at he
          rw [← he.1]
          exact refused_some _

theorem refused_bodyDest (i : CallInput) (h : E.maxInstances ≤ s.rt.instanceStack.length) :
    bodyDest E ex i s = bodyDest E ex' i s ∧ ∀ info t, bodyDest E ex i s ≠ (.ok (info, none), t) := by
  have key : ∀ (e : Option Err) (t : St χ A), E.maxInstances ≤ t.rt.instanceStack.length →
      ((match e with
        | some e => pure (none, some e)
        | none => do
          match (← execute E ex i) with
          | some e => pure (none, some e)
          | none => do
            let s ← M.get
            let (info, r) ← processAsyncInfo E ex s.rt.cur.asyncContextInfo
            match r with
            | .error e => pure (some info, some e)
            | .ok _ => pure (some info, none) : M χ A (Option AsyncContextInfo × Option Err)) t) =
      ((match e with
        | some e => pure (none, some e)
        | none => do
          match (← execute E ex' i) with
          | some e => pure (none, some e)
          | none => do
            let s ← M.get
            let (info, r) ← processAsyncInfo E ex' s.rt.cur.asyncContextInfo
            match r with
            | .error e => pure (some info, some e)
            | .ok _ => pure (some info, none) : M χ A (Option AsyncContextInfo × Option Err)) t) ∧
      ∀ info u, ((match e with
        | some e => pure (none, some e)
        | none => do
          match (← execute E ex i) with
          | some e => pure (none, some e)
          | none => do
            let s ← M.get
            let (info, r) ← processAsyncInfo E ex s.rt.cur.asyncContextInfo
            match r with
            | .error e => pure (some info, some e)
            | .ok _ => pure (some info, none) : M χ A (Option AsyncContextInfo × Option Err)) t) ≠ (.ok (info, none), u) := by
    intro e t h
    cases e with
    | some e => exact ⟨rfl, by intro _ _ h; simp [M.pure_eq, M.pure] at h⟩
    | none =>
      have hr := refused_execute (E := E) (ex := ex) (ex' := ex') i h
      simp only [M.bind_eq, M.bind]
      obtain ⟨h1, h2⟩ := hr
      rw [← h1]
      generalize execute E ex i t = q at h2
      obtain ⟨r, w⟩ := q
      cases r with
      | panic => exact ⟨rfl, by simp⟩
      | oof => exact ⟨rfl, by simp⟩
      | ok a =>
        cases a with
        | none => exact absurd rfl (h2 w)
        | some e => exact ⟨rfl, by simp [M.pure_eq, M.pure]⟩
  unfold bodyDest
  dsimp only
  split
  · have h : E.maxInstances ≤ (transferValueOnly E i.recipient i.vm.caller i.vm.callValue false s).2.rt.instanceStack.length := by
      rw [transferValueOnly_rt]; exact h
    exact key _ _ h
  · exact key none s h

theorem refused_bodySame (i : CallInput) (h : E.maxInstances ≤ s.rt.instanceStack.length) :
    Refused (bodySame E ex i) (bodySame E ex' i) s := by
  unfold bodySame
  refine refused_lift ?_
  have h : E.maxInstances ≤ (transferValueOnly E i.recipient i.vm.caller i.vm.callValue false s).2.rt.instanceStack.length := by
    rw [transferValueOnly_rt]; exact h
  generalize transferValueOnly E i.recipient i.vm.caller i.vm.callValue false s = q at h
  obtain ⟨r, u⟩ := q
  cases r with
  | some e => exact refused_some _
  | none => exact refused_execute i h

/-! ### Enough fuel -/

theorem frameEx_idle : FrameEx (Executor.idle : Executor χ A) := by
  refine ⟨?_, ?_, ?_, ?_⟩
  · intro i s r t h
    simp only [Executor.idle, Prod.mk.injEq] at h
    rw [← h.2]; exact ⟨.refl s, rfl, rfl, rfl⟩
  · intro i s r t h
    simp only [Executor.idle, Prod.mk.injEq] at h
    rw [← h.2]; exact ⟨.refl s, rfl, rfl, rfl⟩
  · intro i s t h; simp [Executor.idle] at h
  · intro i s t h; simp [Executor.idle] at h

theorem frameEx_halt : FrameEx (Executor.halt : Executor χ A) :=
  ⟨fun _ _ _ _ h => (halt_dest h).elim, fun _ _ _ _ h => (halt_same h).elim, fun i s t h => by simp [Executor.halt] at h,
   fun i s t h => by simp [Executor.halt] at h⟩

theorem StepH.rt {s t : St χ A} (h : StepH E s t) : t.rt = s.rt ∧ t.nextInst = s.nextInst := by
  cases h <;> exact ⟨rfl, rfl⟩
theorem Run.rtH {s t : St χ A} (h : Run (StepH E) s t) : t.rt = s.rt ∧ t.nextInst = s.nextInst :=
  h.rel (R := fun s t => t.rt = s.rt ∧ t.nextInst = s.nextInst) (fun _ => ⟨rfl, rfl⟩)
    (fun _ _ _ h h' => ⟨h'.1.trans h.1, h'.2.trans h.2⟩) (fun _ _ h => h.rt)

/-- at the limit no instance is made -/
theorem StepB.noInst {s t : St χ A} (h : StepB E Executor.idle s t) (hl : E.maxInstances ≤ s.rt.instanceStack.length) :
    t.nextInst = s.nextInst := by
  cases h with
  | a _ h =>
    cases h with
    | dest _ i r h _ => simp only [Executor.idle, Prod.mk.injEq] at h; rw [← h.2]
    | same _ i r h _ => simp only [Executor.idle, Prod.mk.injEq] at h; rw [← h.2]
    | undo _ i r a ci h => simp only [Executor.idle, Prod.mk.injEq] at h; rw [← h.2]
    | _ => rfl
  | newInst c new m g hn _ _ => omega
  | warmStart _ _ _ _ _ hn => omega
  | clean _ => unfold St.cleanInstance; split; rfl; split <;> rfl
  | failed c new m g h1 h2 h3 => omega
  | finalize => obtain ⟨o, m, h⟩ := getVMOutput_only (E := E) s; rw [h]
  | _ => rfl
theorem Run.noInst {s t : St χ A} (h : Run (StepB E Executor.idle) s t) (hl : E.maxInstances ≤ s.rt.instanceStack.length) :
    t.nextInst = s.nextInst := by
  have : t.nextInst = s.nextInst ∧ E.maxInstances ≤ t.rt.instanceStack.length := by
    refine h.inv (P := fun u => u.nextInst = s.nextInst ∧ E.maxInstances ≤ u.rt.instanceStack.length) ?_ ⟨rfl, hl⟩
    intro u v hs hu
    have := (hs.frame frameEx_idle).1.insts
    exact ⟨(hs.noInst hu.2).trans hu.1, by rw [this]; exact hu.2⟩
  exact this.1

theorem bad_oof {s t : St χ A} (h : NestedBad ex .oof s t) : (∃ i, (ex.dest i s).1 = .oof) ∨ (∃ i, (ex.same i s).1 = .oof) := by
  rcases h with ⟨i, h⟩ | ⟨i, h⟩
  · left; refine ⟨i, ?_⟩
    split at h
    · simp at h
    · simp at h
    · rename_i he; rw [he]
  · right; refine ⟨i, ?_⟩
    split at h
    · simp at h
    · simp at h
    · rename_i he; rw [he]

theorem enterDest_stack (j : CallInput) (t : St χ A) : (enterDestState j t).rt.instanceStack = t.rt.instance_ :: t.rt.instanceStack := rfl
theorem enterSame_stack (j : CallInput) (t : St χ A) : (enterSameState E j t).rt.instanceStack = t.rt.instance_ :: t.rt.instanceStack := rfl

/-- With fuel for as many levels as there are free instances, nested calls do not run out of fuel. -/
theorem execN_enough : ∀ (n : Nat) (s : St χ A) (i : CallInput), 1 ≤ n → E.maxInstances ≤ n + s.rt.instanceStack.length →
    ((execN E n).dest i s).1 ≠ .oof ∧ ((execN E n).same i s).1 ≠ .oof
  | 0, _, _, h, _ => by omega
  | n + 1, s, i, _, h => by
    have ih := execN_enough n
    have hF := frameEx_execN E n
    have bad : ∀ (u v : St χ A), u.rt.instanceStack.length = s.rt.instanceStack.length + 1 →
        E.maxInstances ≤ n + (s.rt.instanceStack.length + 1) → 1 ≤ n → ¬ NestedBad (execN E n) .oof u v := by
      intro u v hu hm hn hb
      rcases bad_oof hb with ⟨j, hj⟩ | ⟨j, hj⟩
      · exact (ih u j hn (by omega)).1 hj
      · exact (ih u j hn (by omega)).2 hj
    constructor
    · intro he
      have he' : execDest E (execN E n) i s = (.oof, ((execN E (n+1)).dest i s).2) := by
        rw [← he]; rfl
      rcases execDest_any i s _ _ he' with ⟨_, h1, _⟩ | ⟨h1, _⟩ | ⟨_, t, j, h1, h2⟩
      · simp at h1
      · simp at h1
      · have hst : (enterDestState j t).rt.instanceStack.length = s.rt.instanceStack.length + 1 := by
          rw [enterDest_stack, h1.rtH.1]; rfl
        by_cases hl : E.maxInstances ≤ s.rt.instanceStack.length + 1
        · rw [(refused_bodyDest (ex' := Executor.idle) _ (by rw [hst]; exact hl)).1] at h2
          exact ((sim_bodyDest frameEx_idle.keeps _ _ (fresh_enterDest _ _)).any h2).2 rfl
        · have h3 := sim_bodyDest (E := E) hF.keeps (enterDestInput j t) _ (fresh_enterDest j t)
          unfold SimAt at h3
          rw [h2] at h3
          obtain ⟨t0, h4, h5⟩ := h3
          exact bad t0 _ (by rw [(h4.frame hF).1.insts, hst]) (by omega) (by omega) h5
    · intro he
      have he' : execSame E (execN E n) i s = (.oof, ((execN E (n+1)).same i s).2) := by
        rw [← he]; rfl
      rcases execSame_any i s _ _ he' with ⟨h1, _, _⟩ | ⟨_, ⟨e, u, _, ⟨h1, _⟩ | ⟨h1, _⟩⟩ | ⟨h1, _⟩ | ⟨_, h2⟩⟩
      · simp at h1
      · simp at h1
      · simp at h1
      · simp at h1
      · have hst : (enterSameState E i s).rt.instanceStack.length = s.rt.instanceStack.length + 1 := rfl
        by_cases hl : E.maxInstances ≤ s.rt.instanceStack.length + 1
        · rw [(refused_bodySame (ex' := Executor.idle) _ (by rw [hst]; exact hl)).1] at h2
          exact ((sim_bodySame frameEx_idle.keeps _ _ (fresh_enterSame _ _)).any h2).2 rfl
        · have h3 := sim_bodySame (E := E) hF.keeps (enterSameInput E i s) _ (fresh_enterSame i s)
          unfold SimAt at h3
          rw [h2] at h3
          obtain ⟨t0, h4, h5⟩ := h3
          exact bad t0 _ (by rw [(h4.frame hF).1.insts, hst]) (by omega) (by omega) h5

/-- With fuel for the instance limit a transaction does not run out of fuel. -/
theorem runTx_enough {n : Nat} (h1 : 1 ≤ n) (hn : E.maxInstances ≤ n) (tx : Tx) (s : St χ A) (hr : AtRest E s) :
    (runTx E n tx s).1 ≠ none := by
  intro h
  have h2 := runTx_any (E := E) n tx s
  rw [h] at h2
  generalize (runTx E n tx s).2 = v at h2
  cases h2 with
  | oof _ h2 =>
    have hF := frameEx_execN E n
    obtain ⟨m, h3, h4⟩ := sim_txBody (E := E) hF tx hr
    rw [h3] at h2
    unfold SimAt at h4
    rw [h2] at h4
    obtain ⟨t0, h5, h6⟩ := h4
    have h7 : t0.rt.instanceStack = [] := by rw [(h5.frameT hF).1.insts, (txStart_rt tx s).1, hr.stack]
    rcases bad_oof h6 with ⟨j, hj⟩ | ⟨j, hj⟩
    · exact (execN_enough n t0 j h1 (by omega)).1 hj
    · exact (execN_enough n t0 j h1 (by omega)).2 hj

/-! ### The host is at rest again after a transaction -/

theorem cleanInstance_rest (s : St χ A) : s.cleanInstance.rt.instanceStack = s.rt.instanceStack ∧
    s.cleanInstance.rt.warmInstance = s.rt.warmInstance ∧ s.cleanInstance.nextInst = s.nextInst := by
  unfold St.cleanInstance
  split
  · exact ⟨rfl, rfl, rfl⟩
  · split <;> exact ⟨rfl, rfl, rfl⟩

theorem cleanInstance_none {s : St χ A} (hw : s.rt.warmInstance = none) : s.cleanInstance.rt.instance_ = none := by
  unfold St.cleanInstance
  cases hi : s.rt.instance_ with
  | none => exact hi
  | some i => simp [St.isWarm, hi, hw]

theorem popInstance_rest (s : St χ A) : s.popInstance.rt.warmInstance = s.rt.warmInstance ∧ s.popInstance.nextInst = s.nextInst := by
  unfold St.popInstance
  split
  · exact ⟨rfl, rfl⟩
  · dsimp only
    split
    · exact ⟨rfl, rfl⟩
    · exact ⟨(cleanInstance_rest _).2.1, (cleanInstance_rest _).2.2⟩

theorem rtPopSet_rest (s : St χ A) : s.rtPopSet.rt.warmInstance = s.rt.warmInstance ∧ s.rtPopSet.nextInst = s.nextInst := by
  unfold St.rtPopSet
  split
  · exact ⟨rfl, rfl⟩
  · exact popInstance_rest _

/-- without the warm-instance feature no instance is ever kept -/
theorem warm_unary (hw : E.useWarm = false) : Unary E (fun s => s.rt.warmInstance = none) where
  delete _ _ _ _ _ _ _ _ h := h
  step := by
    intro s t h hI
    cases h with
    | a _ h =>
      cases h with
      | dest _ i r h _ => exact (halt_dest h).elim
      | same _ i r h _ => exact (halt_same h).elim
      | undo _ i r a ci h => exact (halt_dest h).elim
      | _ => exact hI
    | warmStart i g h1 => rw [hw] at h1; simp at h1
    | setWarm h1 => rw [hw] at h1; simp at h1
    | clean _ => exact (cleanInstance_rest s).2.1.trans hI
    | failed c new m g h1 h2 h3 => exact (cleanInstance_rest (newInstance m g new s)).2.1.trans hI
    | finalize => obtain ⟨o, m, h⟩ := getVMOutput_only (E := E) s; rw [h]; exact hI
    | _ => exact hI
  stepH := by intro s t h hI; rw [h.rt.1]; exact hI
  push := fun s hI => hI
  bcPopSet := fun s hI => by rw [bcPopSet_rt]; exact hI
  bcPopDiscard := fun s hI => hI
  onError := fun e s hI => by obtain ⟨o, m, h⟩ := outputOnError_only (E := E) s e; rw [h]; exact hI
  enterDest := fun i s hI => hI
  enterSame := fun i s hI => hI
  popDest := fun b s hI => by
    unfold popDest
    rw [(rtPopSet_rest _).1]
    cases b <;> exact hI
  popSameFail := fun s hI => by
    unfold popSameFail
    rw [bcPopSet_rt, (rtPopSet_rest _).1]
    exact hI
  popSameOk := fun s hI => (rtPopSet_rest _).1.trans hI
  restore := fun g s hI => by obtain ⟨r, ins, h, _⟩ := restoreGas_only g s; rw [h]; exact hI

theorem hostClean_stack (s : St χ A) : (hostClean s).rt.instanceStack = s.rt.instanceStack := by
  unfold hostClean
  split
  · rfl
  · exact (cleanInstance_rest s).1

theorem resetWarm_stack (s : St χ A) : s.resetWarm.rt.instanceStack = s.rt.instanceStack := by
  unfold St.resetWarm
  split <;> rfl

/-- A transaction leaves the host at rest, also if it fails or panics. -/
theorem runTx_rest (n : Nat) (tx : Tx) (s : St χ A) (hr : AtRest E s) (h : (runTx E n tx s).1 ≠ none) :
    AtRest E (runTx E n tx s).2 := by
  have h1 := runTx_any (E := E) n tx s
  generalize (runTx E n tx s).2 = v at h1
  generalize (runTx E n tx s).1 = q at h1 h
  have hF := frameEx_execN E n
  obtain ⟨m, h3, h4⟩ := sim_txBody (E := E) hF tx hr
  have key : ∀ (r : Res VMOutput) (t : St χ A), txBody E (execN E n) tx (hostInit E s) = (r, t) → r ≠ .oof →
      t.rt.instanceStack = [] := by
    intro r t he hn
    rw [h3] at he
    have := h4.frameT hF he hn
    rw [this.insts, (txStart_rt tx s).1, hr.stack]
  have warm : E.useWarm = false → ∀ (r : Res VMOutput) (t : St χ A), txBody E (execN E n) tx (hostInit E s) = (r, t) → r ≠ .oof →
      t.rt.warmInstance = none := by
    intro hw r t he hn
    refine (warm_unary hw).txBody (fun _ _ _ h => h) n tx hr he hn ?_
    rw [(txStart_rt tx s).2.2]
    exact hr.warm.resolve_right (by simp [hw])
  have clean : ∀ (r : Res VMOutput) (t : St χ A), txBody E (execN E n) tx (hostInit E s) = (r, t) → r ≠ .oof →
      AtRest E (hostClean t) := by
    intro r t he hn
    cases hw : E.useWarm with
    | true => exact ⟨.inr hw, by rw [hostClean_stack]; exact key r t he hn, .inr hw⟩
    | false =>
      have h5 := warm hw r t he hn
      have h6 : hostClean t = t.cleanInstance := by
        unfold hostClean
        split
        · rename_i h; unfold St.isWarm at h; rw [h5] at h; revert h
          cases hi : t.rt.instance_ with
          | none => intro _; unfold St.cleanInstance; simp only [hi]
          | some i => simp
        · rfl
      refine ⟨.inl ?_, by rw [hostClean_stack]; exact key r t he hn, .inl ?_⟩
      · rw [h6]; exact cleanInstance_none h5
      · rw [h6, (cleanInstance_rest t).2.1]; exact h5
  cases h1 with
  | ok o t h5 => exact clean _ t h5 (by simp)
  | panic t h5 => exact clean _ t h5 (by simp)
  | oof t h5 => exact absurd rfl h
  | reset o t h5 h6 =>
    have h7 := clean _ t h5 (by simp)
    have e : ∀ u : St χ A, AtRest E u → AtRest E u.resetWarm := by
      intro u hu
      refine ⟨?_, by rw [resetWarm_stack]; exact hu.stack, ?_⟩
      · unfold St.resetWarm
        split
        · exact hu.inst
        · exact .inl rfl
      · unfold St.resetWarm
        split
        · exact hu.warm
        · exact .inl rfl
    exact e _ h7

end Arwen
