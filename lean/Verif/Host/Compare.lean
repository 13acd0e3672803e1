import Verif.Host.TopSim
/-
Comparison of two hosts that differ in the recursion fuel of the model, or in checks added to the API functions.
If the first host does not run out of fuel, both do the same. Some API functions may also panic in the first host only; then both
do the same if the first does not panic.
-/
namespace Arwen
variable {χ A : Type}

/-- the environment with another API -/
abbrev Env.withApi (E : Env χ A) (api : A → Free χ A Int64) : Env χ A := { E with api := api }

/-- the end of a run about which nothing is said: out of fuel, or also a panic if `bad` is set -/
def Stops {α : Type} (bad : Bool) : Res α → Prop
  | .ok _ => False
  | .panic => bad = true
  | .oof => True

/-- `m` runs out of fuel (or panics, if `bad` is set) or does the same as `m'` -/
def LeIf {α : Type} (bad : Bool) (m m' : M χ A α) (s : St χ A) : Prop := Stops bad (m s).1 ∨ m s = m' s

variable {bad : Bool}

theorem stops_false {α : Type} {r : Res α} (h : Stops false r) : r = .oof := by
  cases r with
  | ok a => exact h.elim
  | panic => cases h
  | oof => rfl

section le
variable {α β : Type} {s : St χ A}

theorem le_refl' (m : M χ A α) (s : St χ A) : LeIf bad m m s := .inr rfl

theorem le_bind {m m' : M χ A α} {f f' : α → M χ A β} (h : LeIf bad m m' s)
    (hf : ∀ a t, m s = (.ok a, t) → LeIf bad (f a) (f' a) t) : LeIf bad (m >>= f) (m' >>= f') s := by
  unfold LeIf at h ⊢
  simp only [M.bind_eq, M.bind]
  rcases h with h | h
  · left
    generalize m s = q at h
    obtain ⟨r, t⟩ := q
    cases r with
    | ok a => exact h.elim
    | panic => exact h
    | oof => trivial
  · rw [← h]
    generalize hq : m s = q at hf
    obtain ⟨r, t⟩ := q
    cases r with
    | ok a => exact hf a t rfl
    | panic => exact .inr rfl
    | oof => exact .inr rfl

theorem le_get {f f' : St χ A → M χ A β} (h : LeIf bad (f s) (f' s) s) : LeIf bad (M.get >>= f) (M.get >>= f') s := h
theorem le_modify {g : St χ A → St χ A} {f f' : Unit → M χ A β} (h : LeIf bad (f ()) (f' ()) (g s)) :
    LeIf bad (M.modify g >>= f) (M.modify g >>= f') s := h
theorem le_lift {g : St χ A → α × St χ A} {f f' : α → M χ A β} (h : LeIf bad (f (g s).1) (f' (g s).1) (g s).2) :
    LeIf bad (M.lift g >>= f) (M.lift g >>= f') s := h

theorem le_ite {c : Prop} [Decidable c] {m m' n n' : M χ A α} (h : c → LeIf bad m m' s) (h' : ¬c → LeIf bad n n' s) :
    LeIf bad (if c then m else n) (if c then m' else n') s := by
  split
  · exact h (by assumption)
  · exact h' (by assumption)

theorem le_deferred {m m' : M χ A α} {f f' : Option α → M χ A β} (h : LeIf bad m m' s)
    (hf : ∀ r t, f r t = f' r t) : LeIf bad (M.deferred m f) (M.deferred m' f') s := by
  unfold LeIf at h ⊢
  simp only [M.deferred]
  rcases h with h | h
  · left
    generalize m s = q at h
    obtain ⟨r, t⟩ := q
    cases r with
    | ok a => exact h.elim
    | panic =>
      show Stops bad _
      dsimp only
      generalize f none t = q
      obtain ⟨r, u⟩ := q
      cases r with
      | ok b => exact h
      | panic => exact h
      | oof => trivial
    | oof => trivial
  · rw [← h]
    right
    simp only [hf]
end le

/-- What is assumed of nested calls and API functions. -/
structure Below (bad : Bool) (E : Env χ A) (api' : A → Free χ A Int64) (ex ex' : Executor χ A) (I : St χ A → Prop) : Prop where
  keeps : KeepsInst ex
  step : ∀ s t, StepB E ex s t → I s → I t
  dest : ∀ i s, I s → LeIf bad (ex.dest i) (ex'.dest i) s
  same : ∀ i s, I s → LeIf bad (ex.same i) (ex'.same i) s

/-- the same for the steps of a running contract only -/
structure BelowA (bad : Bool) (E : Env χ A) (api' : A → Free χ A Int64) (ex ex' : Executor χ A) (I : St χ A → Prop) : Prop where
  keeps : KeepsInst ex
  stepA : ∀ s t, StepA E ex s t → I s → I t
  dest : ∀ i s, I s → LeIf bad (ex.dest i) (ex'.dest i) s
  same : ∀ i s, I s → LeIf bad (ex.same i) (ex'.same i) s

theorem Below.toA {E : Env χ A} {api' : A → Free χ A Int64} {ex ex' : Executor χ A} {I : St χ A → Prop} (h : Below bad E api' ex ex' I) :
    BelowA bad E api' ex ex' I := ⟨h.keeps, fun s t hs => h.step s t (.a s t hs), h.dest, h.same⟩

theorem verifyFunctions_withApi (E : Env χ A) (api' : A → Free χ A Int64) (m : WasmModule A) (l : List Bytes) :
    verifyFunctions (E.withApi api') m l = verifyFunctions E m l := by
  induction l with
  | nil => rfl
  | cons n l ih => unfold verifyFunctions; rw [ih]; rfl

theorem startInstance_withApi (E : Env χ A) (api' : A → Free χ A Int64) : startInstance (E.withApi api') = startInstance E := by
  funext code g n
  have h : verifyContractCode (E.withApi api') = verifyContractCode E := by
    unfold verifyContractCode
    simp only [verifyModule, verifyFunctions_withApi]
  unfold startInstance fromByteCode
  rw [h]
  rfl

theorem sendPending_withApi (E : Env χ A) (api' : A → Free χ A Int64) (l : List AsyncGeneratedCall) :
    sendPending (E.withApi api') l = sendPending E l := by
  induction l with
  | nil => rfl
  | cons c l ih => unfold sendPending; rw [ih]; rfl

section compare
variable {E : Env χ A} {api' : A → Free χ A Int64} {ex ex' : Executor χ A} {I : St χ A → Prop} {s : St χ A}

/-- the invariant after a method -/
theorem Below.inv (hB : Below bad E api' ex ex' I) {α : Type} {m : M χ A α} {a : α} {t : St χ A} (hs : SimAt ex (StepB E ex) m s)
    (he : m s = (.ok a, t)) (hI : I s) : I t := (hs.ok he).inv hB.step hI
theorem Below.invA (hB : Below bad E api' ex ex' I) {α : Type} {m : M χ A α} {a : α} {t : St χ A} (hs : SimAt ex (StepA E ex) m s)
    (he : m s = (.ok a, t)) (hI : I s) : I t := hB.inv hs.up he hI

theorem BelowA.invA (hB : BelowA bad E api' ex ex' I) {α : Type} {m : M χ A α} {a : α} {t : St χ A} (hs : SimAt ex (StepA E ex) m s)
    (he : m s = (.ok a, t)) (hI : I s) : I t := (hs.ok he).inv hB.stepA hI

theorem le_createNewContract (hB : BelowA bad E api' ex ex' I) (i : CreateInput) (hc : ApiRuns E (.createContract i)) (hI : I s) :
    LeIf bad (createNewContract E ex i) (createNewContract (E.withApi api') ex' i) s := by
  unfold createNewContract
  refine le_bind (.inr rfl) (fun r t he => ?_)
  have hI := hB.invA (sim_deductForIndirectDeployment _ i hc s) he hI
  cases r with
  | some e => exact .inr rfl
  | none =>
    refine le_get (le_ite (fun _ => .inr rfl) (fun hro => ?_))
    refine le_bind (.inr rfl) (fun r u he => ?_)
    have hr : u = (newAddress E i.vm.caller t).2 := by
      simp only [M.lift, Prod.mk.injEq] at he; exact he.2.symm
    have hI := hB.invA (sim_lift (run_newAddress t _)) he hI
    have hro : u.rt.cur.readOnly = false := by rw [hr, newAddress_rt]; simpa using hro
    have hdep : ∀ b, r = .ok b → accountExists E u b = false → NewAt E u b := by
      intro b hb hx
      simp only [M.lift, Prod.mk.injEq, Res.ok.injEq] at he
      rw [hr] at hx ⊢
      exact newAddress_newAt (by rw [he.1, hb]) hx
    cases r with
    | error e => exact .inr rfl
    | ok addr =>
      refine le_get (le_ite (fun _ => .inr rfl) (fun hex => ?_))
      refine le_modify (le_modify (le_bind (hB.dest _ _ ?_) (fun r v he => .inr rfl)))
      have h1 : StepA E ex u _ := .deploy u { code := i.code, metadata := i.metadata, address := addr, deployer := i.vm.caller } i hc hro
        (by simpa using hex) (hdep _ rfl (by simpa using hex))
      exact hB.stepA _ _ (.verify _ true) (hB.stepA _ _ h1 hI)

theorem le_runCmd (hB : BelowA bad E api' ex ex' I) (c : Cmd) (hc : ApiRuns E c) (hI : I s) :
    LeIf bad (runCmd E ex c) (runCmd (E.withApi api') ex' c) s := by
  cases c with
  | executeOnDest i => exact le_bind (hB.dest _ _ hI) (fun _ _ _ => .inr rfl)
  | executeOnSame i => exact hB.same _ _ hI
  | executeReadOnly i =>
    refine le_modify (le_bind (hB.same _ _ ?_) (fun _ _ _ => .inr rfl))
    exact hB.stepA _ _ (.rt s _ (.readOnly true i hc)) hI
  | createContract i => exact le_createNewContract hB i hc hI
  | _ => exact .inr rfl

theorem le_interp (hB : BelowA bad E api' ex ex' I) {α : Type} (p : Free χ A α) (hc : ∀ c, MayRun c p → ApiRuns E c) (hI : I s) :
    LeIf bad (interp E ex p) (interp (E.withApi api') ex' p) s := by
  induction p generalizing s with
  | pure a => exact .inr rfl
  | panic => exact .inr rfl
  | ask k ih => exact ih s (fun c h => hc c ⟨s, h⟩) hI
  | op c k ih =>
    refine le_bind (le_runCmd hB c (hc c (.inl rfl)) hI) (fun r t he => ?_)
    exact ih r (fun c h => hc c (.inr ⟨r, h⟩)) (hB.invA (sim_runCmd hB.keeps c (hc c (.inl rfl)) s) he hI)

variable (hA : ∀ a s, I s → LeIf bad (interp E ex (E.api a)) (interp (E.withApi api') ex' (api' a)) s)
include hA

theorem le_runProg (hB : BelowA bad E api' ex ex' I) (i : Nat) (p : Prog A) (hi : s.rt.instance_ = some i) (hI : I s) :
    LeIf bad (runProg E ex i p) (runProg (E.withApi api') ex' i p) s := by
  induction p generalizing s with
  | ret => exact .inr rfl
  | trap => exact .inr rfl
  | burn n k ih =>
    unfold runProg
    refine le_get (le_modify (le_ite (fun _ => .inr rfl) (fun _ => ih ?_ ?_)))
    · exact hi
    · exact hB.stepA _ _ (.inst s i _ hi (.burn _ n)) hI
  | call a k ih =>
    unfold runProg
    refine le_bind (hA a s hI) (fun r t he => ?_)
    have hs := sim_interp (back := true) (E := E) hB.keeps (E.api a) (fun _ h => ⟨a, h⟩) s
    exact le_get (le_ite (fun _ => .inr rfl) (fun _ => ih r (by rw [(hs.ok he).inst_eq]; exact hi) (hB.invA hs he hI)))
  | load off len k ih =>
    unfold runProg
    exact le_get (le_ite (fun _ => ih _ hi hI) (fun _ => .inr rfl))
  | store off bs k ih =>
    unfold runProg
    refine le_get (le_ite (fun _ => le_modify (ih ?_ ?_)) (fun _ => .inr rfl))
    · exact hi
    · exact hB.stepA _ _ (.inst s i _ hi (.mem _ _)) hI

omit hA in
theorem le_execSyncDest (hB : BelowA bad E api' ex ex' I) (v : AsyncView) (hI : I s) :
    LeIf bad (execSyncDest ex v) (execSyncDest ex' v) s := by
  unfold execSyncDest
  refine le_get ?_
  split
  · exact .inr rfl
  · exact le_bind (hB.dest _ _ hI) (fun _ _ _ => .inr rfl)

omit hA in
theorem le_execSyncCallback (hB : BelowA bad E api' ex ex' I) (v : AsyncView) (o : Option VMOutput) (e : Option Err) (hI : I s) :
    LeIf bad (execSyncCallback ex v o e) (execSyncCallback ex' v o e) s := by
  unfold execSyncCallback
  split
  · exact .inr rfl
  · refine le_get ?_
    split
    · exact .inr rfl
    · refine le_bind (.inr rfl) (fun _ t he => le_bind (hB.dest _ _ ?_) (fun _ _ _ => .inr rfl))
      exact hB.invA (sim_restoreGas (E := E) _ s) he hI

omit hA in
theorem le_handleAsyncBreakpoint (hB : BelowA bad E api' ex ex' I) (hI : I s) :
    LeIf bad (handleAsyncBreakpoint E ex) (handleAsyncBreakpoint (E.withApi api') ex') s := by
  unfold handleAsyncBreakpoint
  refine le_bind (.inr rfl) (fun _ t he => ?_)
  have hI := hB.invA (sim_setBreakpoint (E := E) _ s) he hI
  refine le_get ?_
  split
  · exact .inr rfl
  · refine le_bind (.inr rfl) (fun r u he => ?_)
    have hI := hB.invA (sim_asyncMode (E := E) _ t) he hI
    split
    · exact .inr rfl
    · exact .inr rfl
    · exact le_bind (le_execSyncDest hB _ hI) (fun _ _ _ => .inr rfl)
    · exact .inr rfl
    · refine le_bind (le_execSyncDest hB _ hI) (fun r v he => ?_)
      have hI := hB.invA (sim_execSyncDest hB.keeps _ u) he hI
      exact le_bind (le_execSyncCallback hB _ _ _ hI) (fun _ _ _ => .inr rfl)

theorem le_callFunction (hB : BelowA bad E api' ex ex' I) (f : Prog A) (hI : I s) :
    LeIf bad (callFunction E ex f) (callFunction (E.withApi api') ex' f) s := by
  unfold callFunction
  refine le_get ?_
  split
  · exact .inr rfl
  · rename_i i hi
    refine le_bind (le_runProg hA hB i f hi hI) (fun r t he => ?_)
    have hI := hB.invA (sim_runProg hB.keeps i f s hi) he hI
    refine le_ite (fun _ => .inr rfl) (fun _ => ?_)
    unfold handleBreakpoint
    refine le_bind (.inr rfl) (fun r u he => ?_)
    have hI := hB.invA (sim_getBreakpoint (E := E) t) he hI
    split
    · exact .inr rfl
    · exact le_handleAsyncBreakpoint hB hI
    · exact .inr rfl
    · exact .inr rfl
    · exact .inr rfl

omit hA in
theorem le_processAsyncCall (hB : Below bad E api' ex ex' I) (c : AsyncGeneratedCall) (hI : I s) :
    LeIf bad (processAsyncCall E ex c) (processAsyncCall (E.withApi api') ex' c) s := by
  unfold processAsyncCall
  refine le_get ?_
  split
  · exact .inr rfl
  · rename_i input _
    refine le_bind (hB.dest _ _ hI) (fun r t he => ?_)
    have hI := hB.invA (sim_dest (E := E) hB.keeps input s) he hI
    split
    · exact .inr rfl
    · refine le_ite (fun _ => ?_) (fun _ => .inr rfl)
      unfold callbackAsync
      dsimp only
      refine le_get ?_
      split
      · exact .inr rfl
      · exact le_bind (hB.dest _ _ hI) (fun _ _ _ => .inr rfl)

omit hA in
theorem le_processCalls (hB : Below bad E api' ex ex' I) (l : List AsyncGeneratedCall) (hI : I s) :
    LeIf bad (processCalls E ex l) (processCalls (E.withApi api') ex' l) s := by
  induction l generalizing s with
  | nil => exact .inr rfl
  | cons c rest ih =>
    unfold processCalls
    refine le_bind (.inr rfl) (fun b t he => ?_)
    have hI := hB.invA (sim_canExecSync (E := E) _ s) he hI
    refine le_ite (fun _ => ?_) (fun _ => le_bind (ih hI) (fun _ _ _ => .inr rfl))
    refine le_bind (le_processAsyncCall hB c hI) (fun r u he => ?_)
    have hI := hB.invA (sim_processAsyncCall hB.keeps c t) he hI
    obtain ⟨c', e⟩ := r
    cases e with
    | some e => exact .inr rfl
    | none => exact le_bind (ih hI) (fun _ _ _ => .inr rfl)

omit hA in
theorem le_processContexts (hB : Below bad E api' ex ex' I) (l : List Bytes) (info : AsyncContextInfo) (hI : I s) :
    LeIf bad (processContexts E ex l info) (processContexts (E.withApi api') ex' l info) s := by
  induction l generalizing s info with
  | nil => exact .inr rfl
  | cons id rest ih =>
    unfold processContexts
    dsimp only
    refine le_bind (le_processCalls hB _ hI) (fun r t he => ?_)
    have hI := hB.invA (sim_processCalls hB.keeps _ s) he hI
    obtain ⟨calls, e⟩ := r
    cases e with
    | some e => exact .inr rfl
    | none => exact ih _ hI

omit hA in
theorem le_processAsyncInfo (hB : Below bad E api' ex ex' I) (info : AsyncContextInfo) (hI : I s) :
    LeIf bad (processAsyncInfo E ex info) (processAsyncInfo (E.withApi api') ex' info) s := by
  unfold processAsyncInfo
  refine le_ite (fun _ => .inr rfl) (fun _ => le_get ?_)
  split
  · exact .inr rfl
  · refine le_bind (le_processContexts hB _ _ hI) (fun _ _ _ => .inr ?_)
    simp only [sendPending_withApi]
    rfl

theorem le_callInit (hB : Below bad E api' ex ex' I) (hI : I s) :
    LeIf bad (callInit E ex) (callInit (E.withApi api') ex') s := by
  unfold callInit
  refine le_bind (.inr rfl) (fun r t he => ?_)
  have hI := hB.invA (sim_getInitFunction (E := E) s) he hI
  cases r with
  | none => exact .inr rfl
  | some f => exact le_bind (le_callFunction hA hB.toA f hI) (fun _ _ _ => .inr rfl)

theorem le_deploySteps (hB : Below bad E api' ex ex' I) (d : CodeDeployInput) (hfr : Fresh E s) (hI : I s) :
    LeIf bad (deploySteps E ex d) (deploySteps (E.withApi api') ex' d) s := by
  unfold deploySteps
  refine le_bind (.inr rfl) (fun r t he => ?_)
  have hI := hB.inv (sim_deductForDirectDeployment _ s) he hI
  have hfr := hfr.direct he
  cases r with
  | some e => exact .inr rfl
  | none =>
    refine le_modify (le_get ?_)
    have hI := hB.step _ _ (.a _ _ (.verify t true)) hI
    have hfr := hfr.of_eq (t := { t with rt := { t.rt with verifyCode := true } }) rfl rfl
    generalize { t with rt := { t.rt with verifyCode := true } } = t' at hI hfr ⊢
    refine le_bind (.inr (by rw [startInstance_withApi E api']))  (fun r u he => ?_)
    have hI := hB.inv (sim_startInstance _ _ _ _ hfr (.inl rfl)) he hI
    cases r with
    | some e => exact .inr rfl
    | none => exact le_bind (le_callInit hA hB hI) (fun _ _ _ => .inr rfl)

omit hA in
theorem fresh_extractUpgrade {r : Option (Bytes × Bytes)} {t : St χ A} (hfr : Fresh E s) (he : extractUpgrade s = (.ok r, t)) :
    Fresh E t := by
  refine hfr.of_eq ?_ ?_ <;>
  · simp only [extractUpgrade] at he
    split at he <;> · simp only [Prod.mk.injEq] at he; rw [← he.2]

theorem le_executeUpgrade (hB : Below bad E api' ex ex' I) (i : CallInput) (hfr : Fresh E s) (hI : I s) :
    LeIf bad (executeUpgrade E ex i) (executeUpgrade (E.withApi api') ex' i) s := by
  unfold executeUpgrade
  refine le_get ?_
  show LeIf bad (match checkUpgradePermission E s i with | some e => _ | none => _) (match checkUpgradePermission E s i with | some e => _ | none => _) s
  split
  · exact .inr rfl
  · refine le_bind (.inr rfl) (fun r t he => ?_)
    have hI := hB.inv (sim_extractUpgrade s) he hI
    have hfr := fresh_extractUpgrade hfr he
    cases r with
    | none => exact .inr rfl
    | some p => exact le_bind (le_deploySteps hA hB _ hfr hI) (fun _ _ _ => .inr rfl)

theorem le_execute (hB : Below bad E api' ex ex' I) (i : CallInput) (hfr : Fresh E s) (hI : I s) :
    LeIf bad (execute E ex i) (execute (E.withApi api') ex' i) s := by
  unfold execute
  refine le_get (le_ite (fun _ => .inr rfl) (fun _ => ?_))
  refine le_bind (.inr rfl) (fun _ t he => ?_)
  have hI := hB.invA (sim_useGas (E := E) _ s) he hI
  have hfr := hfr.keep (sim_useGas _ s) he
  refine le_ite (fun _ => le_executeUpgrade hA hB i hfr hI) (fun _ => ?_)
  refine le_bind (.inr rfl) (fun r u he => ?_)
  have hI := hB.inv (sim_getSCCode t) he hI
  have hgc := he
  have hfr : Fresh E u := by
    simp only [M.lift, Prod.mk.injEq] at he
    rw [← he.2]
    exact hfr.of_eq (by rw [getSCCode_rt]) (by rw [getSCCode_rt])
  cases r with
  | error e => exact .inr rfl
  | ok code =>
    refine le_bind (.inr rfl) (fun r v he => ?_)
    have hI := hB.inv (sim_deductForExecution _ u) he hI
    have hfr := hfr.exec he
    have hld := loaded_code hgc he
    cases r with
    | some e => exact .inr rfl
    | none =>
      refine le_get (le_bind (.inr (by rw [startInstance_withApi E api'])) (fun r w he => ?_))
      have hI := hB.inv (sim_startInstance _ _ _ v hfr (.inr hld)) he hI
      cases r with
      | some e => exact .inr rfl
      | none =>
        refine le_bind ?_ (fun _ _ _ => .inr rfl)
        unfold callIndirect
        refine le_bind (.inr rfl) (fun r x he => ?_)
        have hI := hB.invA (sim_getFunctionToCall (E := E) w) he hI
        cases r with
        | error e => exact .inr rfl
        | ok f => exact le_callFunction hA hB.toA f hI

theorem le_bodyDest (hB : Below bad E api' ex ex' I) (i : CallInput) (hfr : Fresh E s) (hI : I s) :
    LeIf bad (bodyDest E ex i) (bodyDest (E.withApi api') ex' i) s := by
  unfold bodyDest
  have fin : ∀ (e : Option Err) (u : St χ A), Fresh E u → I u → LeIf bad (match e with
      | some e => pure (none, some e)
      | none => do
        match (← execute E ex i) with
        | some e => pure (none, some e)
        | none => do
          let s ← M.get
          let (info, r) ← processAsyncInfo E ex s.rt.cur.asyncContextInfo
          match r with
          | .error e => pure (some info, some e)
          | .ok _ => pure (some info, none)) (match e with
      | some e => pure (none, some e)
      | none => do
        match (← execute (E.withApi api') ex' i) with
        | some e => pure (none, some e)
        | none => do
          let s ← M.get
          let (info, r) ← processAsyncInfo (E.withApi api') ex' s.rt.cur.asyncContextInfo
          match r with
          | .error e => pure (some info, some e)
          | .ok _ => pure (some info, none)) u := by
    intro e u hfr hI
    cases e with
    | some e => exact .inr rfl
    | none =>
      refine le_bind (le_execute hA hB i hfr hI) (fun r t he => ?_)
      have hI := hB.inv (sim_execute hB.keeps i u hfr) he hI
      cases r with
      | some e => exact .inr rfl
      | none => exact le_get (le_bind (le_processAsyncInfo hB _ hI) (fun _ _ _ => .inr rfl))
  refine le_ite (fun _ => ?_) (fun _ => fin none s hfr hI)
  refine le_bind (.inr rfl) (fun e t he => fin e t ?_ ?_)
  · simp only [M.lift, Prod.mk.injEq] at he
    rw [← he.2]
    exact hfr.of_eq (by rw [transferValueOnly_rt]) (by rw [transferValueOnly_rt])
  · exact hB.invA (sim_lift (run_transferValueOnly s _ _ _ _)) he hI

theorem le_bodySame (hB : Below bad E api' ex ex' I) (i : CallInput) (hfr : Fresh E s) (hI : I s) :
    LeIf bad (bodySame E ex i) (bodySame (E.withApi api') ex' i) s := by
  unfold bodySame
  refine le_bind (.inr rfl) (fun e t he => ?_)
  have hI := hB.invA (sim_lift (run_transferValueOnly s _ _ _ _)) he hI
  cases e with
  | some e => exact .inr rfl
  | none =>
    refine le_execute hA hB i ?_ hI
    simp only [M.lift, Prod.mk.injEq] at he
    rw [← he.2]
    exact hfr.of_eq (by rw [transferValueOnly_rt]) (by rw [transferValueOnly_rt])

theorem le_callMethod (hB : Below bad E api' ex ex' I) (hI : I s) :
    LeIf bad (callMethod E ex) (callMethod (E.withApi api') ex') s := by
  unfold callMethod
  refine le_get ?_
  split
  · exact .inr rfl
  · refine le_bind (.inr rfl) (fun r t he => ?_)
    have hI := hB.inv (sim_functionByCallType _ s) he hI
    split
    · exact .inr rfl
    · exact .inr rfl
    · rename_i f
      refine le_bind (le_callFunction hA hB.toA f hI) (fun r u he => ?_)
      have hI := hB.invA (sim_callFunction hB.keeps f t) he hI
      cases r with
      | some e => exact .inr rfl
      | none =>
        refine le_bind (.inr rfl) (fun r v he => ?_)
        have hv : v = u := by simp only [M.gets, Prod.mk.injEq] at he; exact he.2.symm
        subst hv
        cases r with
        | some e => exact .inr rfl
        | none =>
          unfold afterMethod
          refine le_get ?_
          split
          · exact le_bind (le_processAsyncInfo hB _ hI) (fun _ _ _ => .inr rfl)
          · exact .inr rfl
          · exact le_bind (le_processAsyncInfo hB _ hI) (fun _ _ _ => .inr rfl)

theorem le_performDeployment (hB : Below bad E api' ex ex' I) (d : CodeDeployInput) (hfr : Fresh E s) (hI : I s) :
    LeIf bad (performDeployment E ex d) (performDeployment (E.withApi api') ex' d) s :=
  le_bind (le_deploySteps hA hB d hfr hI) (fun _ _ _ => .inr rfl)

theorem le_callRest (hB : Below bad E api' ex ex' I) (g : UInt64) (hfr : Fresh E s) (hI : I s) :
    LeIf bad (callRest E ex g) (callRest (E.withApi api') ex' g) s := by
  unfold callRest
  refine le_get ?_
  split
  · exact .inr rfl
  · refine le_bind (.inr rfl) (fun r u he => ?_)
    have hI := hB.inv (sim_getSCCode s) he hI
    have hgc := he
    have hfr : Fresh E u := by
      simp only [M.lift, Prod.mk.injEq] at he
      rw [← he.2]
      exact hfr.of_eq (by rw [getSCCode_rt]) (by rw [getSCCode_rt])
    cases r with
    | error e => exact .inr rfl
    | ok code =>
      refine le_bind (.inr rfl) (fun r v he => ?_)
      have hI := hB.inv (sim_deductForExecution _ u) he hI
      have hfr := hfr.exec he
      have hld := loaded_code hgc he
      cases r with
      | some e => exact .inr rfl
      | none =>
        refine le_get (le_bind (.inr (by rw [startInstance_withApi E api'])) (fun r w he => ?_))
        have hI := hB.inv (sim_startInstance _ _ _ v hfr (.inr hld)) he hI
        cases r with
        | some e => exact .inr rfl
        | none => exact le_bind (le_callMethod hA hB hI) (fun _ _ _ => .inr rfl)

theorem le_txBody (hB : Below bad E api' ex ex' I) (tx : Tx) (hr : AtRest E s) (hI : I (txStart E tx s)) :
    LeIf bad (txBody E ex tx) (txBody (E.withApi api') ex' tx) (hostInit E s) := by
  have hfr := fresh_txStart tx hr
  cases tx with
  | call i =>
    refine le_ite (fun _ => ?_) (fun _ => ?_)
    · have : LeIf bad (upgradeRest E ex i) (upgradeRest (E.withApi api') ex' i) (enterCallState i (hostInit E s)) := by
        unfold upgradeRest
        refine le_bind (.inr rfl) (fun r t he => ?_)
        have hI := hB.inv (sim_extractUpgrade _) he hI
        have hfr := fresh_extractUpgrade hfr he
        cases r with
        | none => exact .inr rfl
        | some p => exact le_bind (le_performDeployment hA hB _ hfr hI) (fun _ _ _ => .inr rfl)
      exact this
    · exact le_callRest hA hB _ hfr hI
  | create i =>
    refine le_bind (.inr rfl) (fun r t he => ?_)
    have ht : (newAddress E i.vm.caller (hostInit E s)).1 = r ∧ (newAddress E i.vm.caller (hostInit E s)).2 = t := by
      simpa [M.lift] using he
    cases r with
    | error e => exact .inr rfl
    | ok a =>
      have e1 : txStart E (.create i) s = enterCreateState i a t := by simp only [txStart, ht.1, ht.2]
      rw [e1] at hfr hI
      have : LeIf bad (createRest E ex i a) (createRest (E.withApi api') ex' i a) (enterCreateState i a t) := by
        exact le_bind (le_performDeployment hA hB _ hfr hI) (fun _ _ _ => .inr rfl)
      exact this

end compare

/-- An invariant of running hosts, closed under entering calls. -/
structure Invariant (E : Env χ A) (I : St χ A → Prop) : Prop where
  step : ∀ n s t, StepB E (execN E n) s t → I s → I t
  stepH : ∀ s t, StepH E s t → I s → I t
  push : ∀ s, I s → I (St.bcPush E s)
  enterDest : ∀ i s, I s → I (enterDestState i s)
  enterSame : ∀ i s, I s → I (enterSameState E i s)

section levels
variable {E : Env χ A} {api' : A → Free χ A Int64} {I : St χ A → Prop}

/-- a called contract and the end of its snapshot -/
def destCalled (E : Env χ A) (ex : Executor χ A) (j : CallInput) : M χ A DestResult := do
  let r ← execDestNoBuiltin E ex j
  M.modify (if r.err.isSome then St.bcPopSet E else St.bcPopDiscard)
  pure r

/-- what follows a builtin function -/
def destBuiltin (E : Env χ A) (ex : Executor χ A) : Except Err (Option CallInput × VMOutput) → M χ A DestResult
  | .error e => do
    M.modify (St.bcPopSet E)
    let out ← M.lift (outputOnError E e)
    pure ⟨out, none, some e⟩
  | .ok (some j, _) => destCalled E ex j
  | .ok (none, out) => do
    M.modify St.bcPopDiscard
    pure ⟨out, none, none⟩

theorem execDest_run (E : Env χ A) (ex : Executor χ A) (i : CallInput) (s : St χ A) : execDest E ex i s =
    if E.isBuiltin i.function then (handleBuiltin E i >>= destBuiltin E ex) (St.bcPush E s)
    else destCalled E ex i (St.bcPush E s) := by
  unfold execDest
  rw [modify_bind]
  by_cases hb : E.isBuiltin i.function = true
  · rw [if_pos hb, if_pos hb]
    simp only [M.bind_eq, M.bind]
    generalize handleBuiltin E i (St.bcPush E s) = q
    obtain ⟨r, t⟩ := q
    cases r with
    | ok r => rcases r with e | ⟨_ | j, o⟩ <;> rfl
    | panic => rfl
    | oof => rfl
  · rw [if_neg hb, if_neg hb]
    rfl

theorem le_execDest {ex ex' : Executor χ A} (hV : Invariant E I) (i : CallInput) (s : St χ A) (hI : I s)
    (hb : ∀ (j k : CallInput) (s : St χ A), I (enterDestState j s) → LeIf bad (bodyDest E ex k) (bodyDest (E.withApi api') ex' k) (enterDestState j s)) :
    LeIf bad (execDest E ex i) (execDest (E.withApi api') ex' i) s := by
  have hno : ∀ (j : CallInput) (t : St χ A), I t →
      LeIf bad (execDestNoBuiltin E ex j) (execDestNoBuiltin (E.withApi api') ex' j) t := by
    intro j t ht
    unfold execDestNoBuiltin
    refine le_bind (.inr rfl) (fun k u he => ?_)
    rw [enterDest_run] at he
    simp only [Prod.mk.injEq, Res.ok.injEq] at he
    obtain ⟨rfl, rfl⟩ := he
    exact le_deferred (hb j _ t (hV.enterDest j t ht)) (fun r t => rfl)
  have hc : ∀ (j : CallInput) (t : St χ A), I t → LeIf bad (destCalled E ex j) (destCalled (E.withApi api') ex' j) t :=
    fun j t ht => le_bind (hno j t ht) (fun _ _ _ => .inr rfl)
  have hstart := hV.push s hI
  unfold LeIf
  rw [execDest_run, execDest_run]
  by_cases hb : E.isBuiltin i.function = true
  · have hb' : (E.withApi api').isBuiltin i.function = true := hb
    rw [if_pos hb, if_pos hb']
    have : LeIf bad (handleBuiltin E i >>= destBuiltin E ex) (handleBuiltin (E.withApi api') i >>= destBuiltin (E.withApi api') ex')
        (St.bcPush E s) := by
      refine le_bind (.inr rfl) (fun r t he => ?_)
      have hIt : I t := (((simH_handleBuiltin (E := E) i _).any he).1).inv hV.stepH hstart
      rcases r with e | ⟨_ | j, o⟩
      · exact .inr rfl
      · exact .inr rfl
      · exact hc j t hIt
    exact this
  · have hb' : ¬(E.withApi api').isBuiltin i.function = true := hb
    rw [if_neg hb, if_neg hb']
    exact hc i _ hstart

theorem le_execSame {ex ex' : Executor χ A} (hV : Invariant E I) (i : CallInput) (s : St χ A) (hI : I s)
    (hb : ∀ (j k : CallInput) (s : St χ A), I (enterSameState E j s) → LeIf bad (bodySame E ex k) (bodySame (E.withApi api') ex' k) (enterSameState E j s)) :
    LeIf bad (execSame E ex i) (execSame (E.withApi api') ex' i) s := by
  unfold execSame
  refine le_ite (fun _ => .inr rfl) (fun _ => ?_)
  refine le_bind (.inr rfl) (fun k u he => ?_)
  rw [enterSame_run] at he
  simp only [Prod.mk.injEq, Res.ok.injEq] at he
  obtain ⟨rfl, rfl⟩ := he
  exact le_deferred (hb i _ s (hV.enterSame i s hI)) (fun r t => rfl)

/-- Two hosts, the second with at least the fuel of the first. -/
theorem below_execN (hV : Invariant E I)
    (hA : ∀ n m, Below bad E api' (execN E n) (execN (E.withApi api') m) I → ∀ a s, I s →
      LeIf bad (interp E (execN E n) (E.api a)) (interp (E.withApi api') (execN (E.withApi api') m) (api' a)) s) :
    ∀ n m, n ≤ m → Below bad E api' (execN E n) (execN (E.withApi api') m) I := by
  intro n
  induction n with
  | zero => exact fun m _ => ⟨keepsInst_execN E 0, hV.step 0, fun _ _ _ => .inl trivial, fun _ _ _ => .inl trivial⟩
  | succ n ih =>
    intro m hm
    obtain ⟨m, rfl⟩ : ∃ k, m = k + 1 := ⟨m - 1, by omega⟩
    have hB := ih m (by omega)
    have hA' := hA n m hB
    refine ⟨keepsInst_execN E (n + 1), hV.step (n + 1), ?_, ?_⟩
    · intro i s hI
      exact le_execDest hV i s hI (fun j k t ht => le_bodyDest hA' hB k (fresh_enterDest j t) ht)
    · intro i s hI
      exact le_execSame hV i s hI (fun j k t ht => le_bodySame hA' hB k (fresh_enterSame j t) ht)

theorem le_runTx (hV : Invariant E I)
    (hA : ∀ n m, Below false E api' (execN E n) (execN (E.withApi api') m) I → ∀ a s, I s →
      LeIf false (interp E (execN E n) (E.api a)) (interp (E.withApi api') (execN (E.withApi api') m) (api' a)) s)
    {n m : Nat} (hnm : n ≤ m) (tx : Tx) (s : St χ A) (hr : AtRest E s) (hI : I (txStart E tx s)) :
    (runTx E n tx s).1 = none ∨ runTx (E.withApi api') m tx s = runTx E n tx s := by
  have hB := below_execN hV hA n m hnm
  have h := le_txBody (hA n m hB) hB tx hr hI
  have hw : ∀ (b b' : M χ A VMOutput), LeIf false b b' (hostInit E s) →
      (withHost E b s).1 = .oof ∨ withHost (E.withApi api') b' s = withHost E b s := by
    intro b b' h
    rw [withHost_run, withHost_run]
    have hh : hostInit (E.withApi api') s = hostInit E s := rfl
    rw [hh]
    rcases h with h | h
    · left
      generalize b (hostInit E s) = q at h
      obtain ⟨r, t⟩ := q
      have h : r = .oof := stops_false h
      subst h
      rfl
    · right; rw [← h]
  cases tx with
  | create i =>
    have h : LeIf false (createBody E (execN E n) i) (createBody (E.withApi api') (execN (E.withApi api') m) i) (hostInit E s) := h
    simp only [runTx, runCreate]
    rcases hw _ _ h with h | h
    · left; rw [h]; rfl
    · right; rw [h]
  | call i =>
    simp only [runTx, runCall]
    by_cases hu : i.function = upgradeName
    · simp only [txBody, if_pos hu] at h
      simp only [if_pos hu]
      rcases hw _ _ h with h | h
      · left; rw [h]; rfl
      · right; rw [h]
    · simp only [txBody, if_neg hu] at h
      simp only [if_neg hu]
      rcases hw _ _ h with h | h
      · left
        generalize withHost E (callBody E (execN E n) i) s = q at h
        obtain ⟨r, t⟩ := q
        simp only at h
        subst h
        rfl
      · right; rw [h]

/-- More fuel does not change a result. -/
theorem runTx_mono {n m : Nat} (hnm : n ≤ m) (tx : Tx) (s : St χ A) (hr : AtRest E s) (h : (runTx E n tx s).1 ≠ none) :
    runTx E m tx s = runTx E n tx s := by
  have := le_runTx (E := E) (api' := E.api) (I := fun _ => True)
    ⟨fun _ _ _ _ _ => trivial, fun _ _ _ _ => trivial, fun _ _ => trivial, fun _ _ _ => trivial, fun _ _ _ => trivial⟩
    (fun n m hB a s hI => le_interp hB.toA (E.api a) (fun _ h => ⟨a, h⟩) hI) hnm tx s hr trivial
  exact this.resolve_left h

/-- the API with a check in front of every function: a panic if the state does not pass -/
def guardApi (E : Env χ A) (P : St χ A → Bool) : A → Free χ A Int64 :=
  fun a => .ask (fun s => if P s then E.api a else .panic)

/-- If an invariant implies the check, a host with the check in front of every API function does the same as the host without
it: the check is passed by every contract at every call of an API function, at any depth. -/
theorem runTx_guard (hV : Invariant E I) (P : St χ A → Bool) (hP : ∀ s, I s → P s = true) (n : Nat) (tx : Tx) (s : St χ A)
    (hr : AtRest E s) (hI : I (txStart E tx s)) (h : (runTx E n tx s).1 ≠ none) :
    runTx (E.withApi (guardApi E P)) n tx s = runTx E n tx s := by
  refine (le_runTx hV ?_ (Nat.le_refl n) tx s hr hI).resolve_left h
  intro n m hB a s hI
  have h := le_interp hB.toA (E.api a) (fun _ h => ⟨a, h⟩) hI
  unfold LeIf at h ⊢
  have e : interp (E.withApi (guardApi E P)) (execN (E.withApi (guardApi E P)) m) (guardApi E P a) s
      = interp (E.withApi (guardApi E P)) (execN (E.withApi (guardApi E P)) m) (E.api a) s := by
    simp only [guardApi, interp, hP s hI, if_true]
  rw [e]; exact h

/-- some functions of the API always panic -/
def Panics (E : Env χ A) (api' : A → Free χ A Int64) : Prop := ∀ a, api' a = .panic ∨ api' a = E.api a

theorem below_panics (hp : Panics E api') (n : Nat) :
    Below true (E.withApi api') E.api (execN (E.withApi api') n) (execN E n) (fun _ => True) :=
  below_execN (E := E.withApi api') (api' := E.api) (I := fun _ => True) (bad := true)
    ⟨fun _ _ _ _ _ => trivial, fun _ _ _ _ => trivial, fun _ _ => trivial, fun _ _ _ => trivial, fun _ _ _ => trivial⟩
    (fun n m hB a s hI => by
      rcases hp a with h | h
      · left
        show Stops true (interp (E.withApi api') _ (api' a) s).1
        rw [h]
        rfl
      · have h1 := le_interp (s := s) hB.toA (api' a) (fun _ h => ⟨a, h⟩) hI
        rw [h] at h1
        show LeIf true (interp (E.withApi api') _ (api' a)) _ s
        rw [h]
        exact h1) n n (Nat.le_refl n)

theorem LeIf.ok {α : Type} {m m' : M χ A α} {s t : St χ A} {a : α} {b : Bool} (h : LeIf b m m' s) (he : m s = (.ok a, t)) :
    m' s = (.ok a, t) := by
  rcases h with h | h
  · rw [he] at h; exact h.elim
  · rw [← h]; exact he

/-- Calls that return although some API functions panic do the same with the full API. -/
theorem same_panics (hp : Panics E api') {n : Nat} {i : CallInput} {s t : St χ A} {r : Option Err}
    (h : (execN (E.withApi api') n).same i s = (.ok r, t)) : (execN E n).same i s = (.ok r, t) :=
  ((below_panics hp n).same i s trivial).ok h
theorem dest_panics (hp : Panics E api') {n : Nat} {i : CallInput} {s t : St χ A} {r : DestResult}
    (h : (execN (E.withApi api') n).dest i s = (.ok r, t)) : (execN E n).dest i s = (.ok r, t) :=
  ((below_panics hp n).dest i s trivial).ok h

end levels
end Arwen
