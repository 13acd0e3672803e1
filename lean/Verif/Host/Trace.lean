import Verif.Host.Top
import Verif.Eei.Run
/-
Small steps of the host. Every method of the host is shown to be a sequence of these steps, so that a property kept by each
step is kept by every contract and every host method.
-/
namespace Arwen
variable {χ A : Type}

/-- an output with the entry of one account replaced -/
def VMOutput.put (o : VMOutput) (a : Addr) (acc : OutAcc) : VMOutput := { o with accounts := o.accounts.insert a acc }

/-- the storage keys the host itself uses: storage locks and pending asynchronous calls -/
def vmKey (k : Bytes) : Prop := ∃ a, k = customStorageKey timelockPrefix a ∨ k = customStorageKey asyncPrefix a

/-- an API function may run command `c` -/
def MayRun {α : Type} (c : Cmd) : Free χ A α → Prop
  | .pure _ => False
  | .panic => False
  | .ask k => ∃ s, MayRun c (k s)
  | .op c' k => c' = c ∨ ∃ r, MayRun c (k r)
/-- some API function of the environment may run command `c` -/
def ApiRuns (E : Env χ A) (c : Cmd) : Prop := ∃ a, MayRun c (E.api a)
/-- an API without read-only calls -/
def NoReadOnlyApi (E : Env χ A) : Prop := ∀ i, ¬ ApiRuns E (.executeReadOnly i)
/-- an API without deployments -/
def NoCreateApi (E : Env χ A) : Prop := ∀ i, ¬ ApiRuns E (.createContract i)
/-- an API with groups of asynchronous calls -/
def GroupApi (E : Env χ A) : Prop :=
  ∃ id, (∃ c, ApiRuns E (.addAsyncContextCall id c)) ∨ (∃ cb, ApiRuns E (.setAsyncContextCallback id cb))
/-- an API without groups of asynchronous calls -/
def NoGroupApi (E : Env χ A) : Prop := ¬ GroupApi E

/-- an address that the node hands out for a new contract in state `s`, where no account exists then -/
def NewAt (E : Env χ A) (s : St χ A) (a : Addr) : Prop :=
  (∃ c n, E.hook.newAddress s.world c n E.vmType = .ok a) ∧ ∀ ua, E.hook.userAccount s.world a ≠ .ok (some ua)

/-- code that was compiled and passed the checks for new code (or whose checks were skipped because a warm instance was used) -/
def Vetted (E : Env χ A) (code : Bytes) : Prop :=
  E.useWarm = true ∨ ∃ m esdt, E.wasm.compile code = .ok m ∧ verifyModule E esdt m = none

/-- an upgrade that the account on the chain allows -/
def UpgradeAllowed (E : Env χ A) (d : CodeDeployInput) : Prop :=
  ∃ w ua, E.hook.userAccount w d.address = .ok (some ua) ∧ metaUpgradeable ua.codeMetadata = true ∧ ua.owner = d.deployer

/-- Reasons for installing code from a contract: a deployment at an address without an account, or an upgrade. -/
inductive MayDeploy (E : Env χ A) (s : St χ A) (d : CodeDeployInput) : Prop
  | new (i : CreateInput) : ApiRuns E (.createContract i) → s.rt.cur.readOnly = false → accountExists E s d.address = false →
      NewAt E s d.address → MayDeploy E s d
  | upgrade : UpgradeAllowed E d → Vetted E d.code → MayDeploy E s d

/-- Changes of one instance; gas is given back only where `back` allows it. -/
inductive InstStep (back : Bool) : Inst A → Inst A → Prop
  | use (x : Inst A) (g : UInt64) : InstStep back x { x with points := clampPoints (addU64 x.points g) }
  | restore (x : Inst A) (g : UInt64) : back = true → g ≤ x.points → InstStep back x { x with points := clampPoints (subU64 x.points g) }
  | burn (x : Inst A) (g : UInt64) : InstStep back x { x with points := addU64 x.points g }
  | bp (x : Inst A) (b : Breakpoint) : InstStep back x { x with bp := b }
  | mem (x : Inst A) (m : Bytes) : InstStep back x { x with mem := m }

/-- Changes of the active output, by the executing contract in state `s`. -/
inductive OutStep (E : Env χ A) (s : St χ A) : VMOutput → Prop
  /-- an account is looked at for the first time -/
  | touch (a : Addr) : s.out.cur.accounts.get? a = none → OutStep E s (s.out.cur.put a {})
  /-- the balance on the chain is noted -/
  | cacheBal (a : Addr) (acc : OutAcc) (ua : UserAcct) : s.out.cur.accounts.get? a = some acc → acc.balance = none →
      acctOf E s a = some ua → OutStep E s (s.out.cur.put a { acc with balance := some ua.balance })
  | cacheNonce (a : Addr) (acc : OutAcc) (ua : UserAcct) : s.out.cur.accounts.get? a = some acc → acc.nonce = 0 →
      acctOf E s a = some ua → OutStep E s (s.out.cur.put a { acc with nonce := ua.nonce })
  | cacheCode (a : Addr) (acc : OutAcc) (ua : UserAcct) : s.out.cur.accounts.get? a = some acc → acc.code = [] →
      acctOf E s a = some ua → OutStep E s (s.out.cur.put a { acc with code := ua.code })
  | cacheSto (a : Addr) (acc : OutAcc) (k : Bytes) : s.out.cur.accounts.get? a = some acc → acc.storage.get? k = none →
      OutStep E s (s.out.cur.put a { acc with storage := acc.storage.insert k (E.hook.storageData s.world a k) })
  /-- a storage write -/
  | write (acc : OutAcc) (k v old : Bytes) : s.out.cur.accounts.get? s.sto.addr = some acc → acc.storage.get? k = some old →
      s.rt.cur.readOnly = false → isReservedKey E k = false → (isProtectedKey k = true → s.sto.protect = false ∨ vmKey k) →
      OutStep E s (s.out.cur.put s.sto.addr { acc with storage := acc.storage.insert k v })
  /-- a payment covered by the payer's balance -/
  | pay (snd dst : Addr) (acc dacc : OutAcc) (v : Int) : s.out.cur.accounts.get? snd = some acc →
      s.out.cur.accounts.get? dst = some dacc → 0 ≤ v →
      (match acc.balance with | some b => v ≤ b + acc.balanceDelta | none => v = 0) →
      OutStep E s ((s.out.modAcc snd (fun x => { x with balanceDelta := x.balanceDelta - v })).modAcc dst
        (fun x => { x with balanceDelta := x.balanceDelta + v })).cur
  | xfer (dst : Addr) (acc : OutAcc) (t : OutTransfer) : s.out.cur.accounts.get? dst = some acc →
      OutStep E s (s.out.cur.put dst { acc with transfers := acc.transfers ++ [t] })
  | incNonce (a : Addr) (acc : OutAcc) (i : CreateInput) : ApiRuns E (.createContract i) → s.out.cur.accounts.get? a = some acc →
      (acc.nonce = 0 → s.flags.v3 = true → ∀ ua, acctOf E s a = some ua → ua.nonce = 0) →
      OutStep E s (s.out.cur.put a { acc with nonce := acc.nonce + 1 })
  /-- the gas of a failed execution is accounted for -/
  | gasUsed (acc : OutAcc) : s.out.cur.accounts.get? s.rt.cur.scAddress = some acc →
      OutStep E s (s.out.cur.put s.rt.cur.scAddress { acc with gasUsed := addU64 acc.gasUsed s.met.cur.initialGasProvided })
  | refund (g : UInt64) :
      OutStep E s { s.out.cur with gasRefund := (addU64 (UInt64.ofInt s.out.cur.gasRefund) g).toInt64.toInt }
  | finish (d : Bytes) : OutStep E s { s.out.cur with returnData := s.out.cur.returnData ++ [d] }
  | prepend (d : Bytes) : OutStep E s { s.out.cur with returnData := d :: s.out.cur.returnData }
  | log (e : LogEntry) : s.rt.cur.readOnly = false → OutStep E s { s.out.cur with logs := s.out.cur.logs ++ [e] }
  /-- the logs of a token transfer made by the node -/
  | logs (w : χ) (i : CallInput) (b : BuiltinOutput) : (E.hook.processBuiltIn w i).1 = .ok b →
      OutStep E s { s.out.cur with logs := s.out.cur.logs ++ b.out.logs }
  | msg (m : Bytes) : OutStep E s { s.out.cur with returnMessage := m }

/-- Changes of the active runtime state. -/
inductive RtStep (E : Env χ A) (s : St χ A) : RtCore → Prop
  | asyncCall (x : Option AsyncCallInfo) : RtStep E s { s.rt.cur with asyncCallInfo := x }
  | asyncCtx (c : AsyncContextInfo) : GroupApi E → RtStep E s { s.rt.cur with asyncContextInfo := c }
  | readOnly (b : Bool) (i : CallInput) : ApiRuns E (.executeReadOnly i) → RtStep E s { s.rt.cur with readOnly := b }
  | noGas : RtStep E s { s.rt.cur with vmInput := { s.rt.cur.vmInput with gasProvided := 0 } }

/-- Changes of the node's state. -/
inductive WorldStep (E : Env χ A) (w : χ) : χ → Prop
  | builtin (i : CallInput) : WorldStep E w (E.hook.processBuiltIn w i).2
  | revert (n : Int) : WorldStep E w (E.hook.revert w n)

/-- Steps taken while a contract runs (its own and those of API functions, which give no gas back). -/
inductive StepX (E : Env χ A) (ex : Executor χ A) (back : Bool) : St χ A → St χ A → Prop
  | inst (s : St χ A) (i : Nat) (x : Inst A) : s.rt.instance_ = some i → InstStep back (s.insts i) x →
      StepX E ex back s (s.modInst i (fun _ => x))
  | out (s : St χ A) (o : VMOutput) : OutStep E s o → StepX E ex back s { s with out := { s.out with cur := o } }
  /-- failing: the code in the output and the breakpoint of the instance -/
  | fail (s : St χ A) (i : Nat) (rc : ReturnCode) (m : Bytes) (b : Breakpoint) : s.rt.instance_ = some i →
      (rc = .executionFailed ∧ b = .executionFailed ∨ rc = .userError ∧ b = .signalError) →
      StepX E ex back s ({ s with out := (s.out.setReturnCode rc).setReturnMessage m }.modInst i (fun x => { x with bp := b }))
  | failNone (s : St χ A) (rc : ReturnCode) (m : Bytes) : s.rt.instance_ = none → rc ≠ .ok →
      StepX E ex back s { s with out := (s.out.setReturnCode rc).setReturnMessage m }
  | deploy (s : St χ A) (d : CodeDeployInput) (i : CreateInput) : ApiRuns E (.createContract i) → s.rt.cur.readOnly = false →
      accountExists E s d.address = false → NewAt E s d.address → StepX E ex back s { s with out := s.out.deployCode d }
  | big (s : St χ A) (b : BigCtx) : b.stack = s.big.stack → StepX E ex back s { s with big := b }
  | rt (s : St χ A) (c : RtCore) : RtStep E s c → StepX E ex back s { s with rt := { s.rt with cur := c } }
  | verify (s : St χ A) (b : Bool) : StepX E ex back s { s with rt := { s.rt with verifyCode := b } }
  | protect (s : St χ A) : StepX E ex back s { s with sto := { s.sto with protect := true } }
  | world (s : St χ A) (w : χ) : WorldStep E s.world w → StepX E ex back s { s with world := w }
  | deduct (s : St χ A) (cost : UInt64) (i : CreateInput) : ApiRuns E (.createContract i) → cost ≤ s.rt.cur.vmInput.gasProvided →
      StepX E ex back s { s with met := { s.met with cur := { s.met.cur with
        initialCost := cost, gasForExecution := s.rt.cur.vmInput.gasProvided - cost } } }
  | dest (s t : St χ A) (i : CallInput) (r : DestResult) : ex.dest i s = (.ok r, t) → t.rt.instance_ = s.rt.instance_ →
      StepX E ex back s t
  | same (s t : St χ A) (i : CallInput) (r : Option Err) : ex.same i s = (.ok r, t) → t.rt.instance_ = s.rt.instance_ →
      StepX E ex back s t
  /-- the call of a new contract, which is then removed -/
  | undo (s t : St χ A) (i : CallInput) (r : DestResult) (a : Addr) (ci : CreateInput) : ex.dest i s = (.ok r, t) →
      t.rt.instance_ = s.rt.instance_ → ApiRuns E (.createContract ci) → NewAt E s a → t.rt.cur.readOnly = false →
      StepX E ex back s { t with out := t.out.deleteAcc a }

/-- Steps taken while a contract runs, including the handling of its asynchronous calls. -/
abbrev StepA (E : Env χ A) (ex : Executor χ A) : St χ A → St χ A → Prop := StepX E ex true

theorem StepX.up {E : Env χ A} {ex : Executor χ A} {back : Bool} {s t : St χ A} (h : StepX E ex back s t) : StepA E ex s t := by
  cases back with
  | true => exact h
  | false =>
    cases h with
    | inst i x h hi =>
      refine .inst s i x h ?_
      cases hi with
      | use g => exact .use _ g
      | restore g h => cases h
      | burn g => exact .burn _ g
      | bp b => exact .bp _ b
      | mem m => exact .mem _ m
    | dest _ i r h h' => exact .dest _ _ i r h h'
    | same _ i r h h' => exact .same _ _ i r h h'
    | out o h => exact .out _ o h
    | fail i rc m b h h' => exact .fail _ i rc m b h h'
    | failNone rc m h h' => exact .failNone _ rc m h h'
    | deploy d i h1 h2 h3 h4 => exact .deploy _ d i h1 h2 h3 h4
    | undo t i r a ci h1 h2 h3 h4 h5 => exact .undo _ t i r a ci h1 h2 h3 h4 h5
    | big b h => exact .big _ b h
    | rt c h => exact .rt _ c h
    | verify b => exact .verify _ b
    | protect => exact .protect _
    | world w h => exact .world _ w h
    | deduct c i hc h => exact .deduct _ c i hc h

/-- Sequences of steps. -/
inductive Run (S : St χ A → St χ A → Prop) : St χ A → St χ A → Prop
  | refl (s : St χ A) : Run S s s
  | tail {s t u : St χ A} : Run S s t → S t u → Run S s u

namespace Run
variable {S : St χ A → St χ A → Prop} {s t u : St χ A}
theorem step (h : S s t) : Run S s t := .tail (.refl s) h
theorem trans (h1 : Run S s t) (h2 : Run S t u) : Run S s u := by
  induction h2 with
  | refl => exact h1
  | tail _ hs ih => exact .tail ih hs
theorem head (h : S s t) (h2 : Run S t u) : Run S s u := (step h).trans h2
theorem mono {S' : St χ A → St χ A → Prop} (h : ∀ s t, S s t → S' s t) (hr : Run S s t) : Run S' s t := by
  induction hr with
  | refl => exact .refl _
  | tail _ hs ih => exact .tail ih (h _ _ hs)
/-- a reflexive and transitive relation kept by all steps is kept by all runs -/
theorem rel {R : St χ A → St χ A → Prop} (hrefl : ∀ s, R s s) (htrans : ∀ s t u, R s t → R t u → R s u)
    (hstep : ∀ s t, S s t → R s t) (h : Run S s t) : R s t := by
  induction h with
  | refl => exact hrefl _
  | tail _ hs ih => exact htrans _ _ _ ih (hstep _ _ hs)
/-- a property kept by all steps is kept by all runs -/
theorem inv {P : St χ A → Prop} (hstep : ∀ s t, S s t → P s → P t) (h : Run S s t) (hp : P s) : P t := by
  induction h with
  | refl => exact hp
  | tail _ hs ih => exact hstep _ _ hs ih
end Run

/-- a nested call that panics or runs out of fuel -/
def NestedBad (ex : Executor χ A) (r : Res Unit) (s t : St χ A) : Prop :=
  (∃ i, (match ex.dest i s with | (.ok _, u) => (Res.ok (), u) | (.panic, u) => (.panic, u) | (.oof, u) => (.oof, u)) = (r, t)) ∨
  (∃ i, (match ex.same i s with | (.ok _, u) => (Res.ok (), u) | (.panic, u) => (.panic, u) | (.oof, u) => (.oof, u)) = (r, t))

/-- `m`, run from `s`, is a sequence of steps; if it panics the panic comes after some steps, directly or in a nested call. -/
def SimAt {α : Type} (ex : Executor χ A) (S : St χ A → St χ A → Prop) (m : M χ A α) (s : St χ A) : Prop :=
  match m s with
  | (.ok _, t) => Run S s t
  | (.panic, t) => ∃ t0, Run S s t0 ∧ (t = t0 ∨ NestedBad ex .panic t0 t)
  | (.oof, t) => ∃ t0, Run S s t0 ∧ NestedBad ex .oof t0 t

section sim
variable {ex : Executor χ A} {S : St χ A → St χ A → Prop} {α β : Type} {s : St χ A}

theorem SimAt.mono {S' : St χ A → St χ A → Prop} {m : M χ A α} (h : ∀ s t, S s t → S' s t) (hs : SimAt ex S m s) :
    SimAt ex S' m s := by
  unfold SimAt at *
  split at hs
  · exact hs.mono h
  · obtain ⟨t0, h1, h2⟩ := hs; exact ⟨t0, h1.mono h, h2⟩
  · obtain ⟨t0, h1, h2⟩ := hs; exact ⟨t0, h1.mono h, h2⟩

theorem SimAt.ok {m : M χ A α} {a : α} {t : St χ A} (h : SimAt ex S m s) (he : m s = (.ok a, t)) : Run S s t := by
  unfold SimAt at h; rw [he] at h; exact h

theorem sim_of_ok {m : M χ A α} {a : α} {t : St χ A} (he : m s = (.ok a, t)) (h : Run S s t) : SimAt ex S m s := by
  unfold SimAt; rw [he]; exact h

theorem sim_pure (a : α) : SimAt ex S (pure a : M χ A α) s := Run.refl s
theorem sim_panic : SimAt ex S (M.panic : M χ A α) s := ⟨s, .refl s, .inl rfl⟩

theorem sim_bind {m : M χ A α} {f : α → M χ A β} (h1 : SimAt ex S m s)
    (h2 : ∀ a t, m s = (.ok a, t) → Run S s t → SimAt ex S (f a) t) : SimAt ex S (m >>= f) s := by
  rw [M.bind_eq]
  unfold SimAt at h1 ⊢
  simp only [M.bind]
  split at h1
  · rename_i a t he
    have := h2 a t he h1
    rw [he]
    simp only
    unfold SimAt at this
    split at this
    · exact h1.trans this
    · obtain ⟨t0, h3, h4⟩ := this; exact ⟨t0, h1.trans h3, h4⟩
    · obtain ⟨t0, h3, h4⟩ := this; exact ⟨t0, h1.trans h3, h4⟩
  · rename_i t he; rw [he]; exact h1
  · rename_i t he; rw [he]; exact h1

theorem sim_get {f : St χ A → M χ A β} (h : SimAt ex S (f s) s) : SimAt ex S (M.get >>= f) s :=
  sim_bind (sim_of_ok (a := s) (t := s) rfl (.refl s)) (fun a t he _ => by
    obtain ⟨rfl, rfl⟩ : a = s ∧ t = s := by simpa [M.get, eq_comm] using he
    exact h)

theorem sim_ite {c : Prop} [Decidable c] {m m' : M χ A α} (h : c → SimAt ex S m s) (h' : ¬c → SimAt ex S m' s) :
    SimAt ex S (if c then m else m') s := by
  split
  · exact h (by assumption)
  · exact h' (by assumption)

theorem sim_gets (f : St χ A → α) : SimAt ex S (M.gets f) s := Run.refl s
theorem sim_modify {f : St χ A → St χ A} (h : Run S s (f s)) : SimAt ex S (M.modify f) s := h
theorem sim_lift {f : St χ A → α × St χ A} (h : Run S s (f s).2) : SimAt ex S (M.lift f) s := h
/-- a state change followed by more -/
theorem sim_modify_bind {f : St χ A → St χ A} {g : Unit → M χ A β} (h : Run S s (f s)) (h2 : SimAt ex S (g ()) (f s)) :
    SimAt ex S (M.modify f >>= g) s :=
  sim_bind (sim_modify h) (fun a t he _ => by
    obtain rfl : f s = t := by simpa [M.modify] using he
    exact h2)
theorem sim_lift_bind {f : St χ A → α × St χ A} {g : α → M χ A β} (h : Run S s (f s).2)
    (h2 : SimAt ex S (g (f s).1) (f s).2) : SimAt ex S (M.lift f >>= g) s :=
  sim_bind (sim_lift h) (fun a t he _ => by
    obtain ⟨rfl, rfl⟩ : (f s).1 = a ∧ (f s).2 = t := by simpa [M.lift] using he
    exact h2)
end sim

end Arwen
