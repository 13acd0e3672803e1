import Verif.Props.Storage
import Verif.Host.Triple
import Verif.Host.Compare
import Verif.Eei.Commands
import Verif.Spec.ReadOnly
/-
C11: read-only execution.
-/
namespace Arwen.Props
open Arwen Spec
variable {χ A : Type} {E : Env χ A}

/-! ### Logs -/

theorem getAcc_logs (c : OutCtx) (a : Addr) : (c.getAcc a).2.2.cur.logs = c.cur.logs := by
  unfold OutCtx.getAcc; split <;> rfl
theorem modAcc_logs (c : OutCtx) (a : Addr) (g : OutAcc → OutAcc) : (c.modAcc a g).cur.logs = c.cur.logs := rfl
theorem finalize_logs (s : St χ A) : (getVMOutput E s).2.out.cur.logs = s.out.cur.logs := by
  have h1 : (setGasUsed (updateSCGasUsed (readyState s))).2.out.cur.logs = s.out.cur.logs := getAcc_logs (readyState s).out _
  rcases getVMOutput_cases (E := E) s with he | he <;> rw [he]
  · exact h1
  · exact (modAcc_logs _ _ _).trans h1
theorem destOutput_logs (e : Option Err) (s : St χ A) : (destOutput E e s).2.out.cur.logs = s.out.cur.logs := by
  cases e with
  | none => exact finalize_logs s
  | some e => exact modAcc_logs _ _ _
theorem builtinFrom_logs {w : χ} {i : CallInput} {b : BuiltinOutput} (hb : BuiltinFrom E w i b) :
    ∃ b0, (E.hook.processBuiltIn w i).1 = .ok b0 ∧ b.out.logs = b0.out.logs := by
  obtain ⟨b0, p, s, h1, rfl⟩ := hb
  refine ⟨b0, h1, ?_⟩
  have h4 : ∀ o : VMOutput, (addEsdtTransfer E s i o).logs = o.logs := by
    intro o
    unfold addEsdtTransfer
    split
    · rfl
    · split
      · rfl
      · split
        · rfl
        · split
          · split <;> rfl
          · rfl
  dsimp only
  rw [h4]
  split <;> rfl

/-! ### Read-only states -/

/-- what holds while execution is read-only -/
structure Quieted (E : Env χ A) (s t : St χ A) : Prop extends ReadOnlyKept E s t where
  readOnly : t.rt.cur.readOnly = true
  chain : SameChain E s t

/-- the relation between states behind C11 -/
def ReadOnlyRel (E : Env χ A) (s t : St χ A) : Prop := s.rt.cur.readOnly = true → Quieted E s t

theorem Quieted.of {s t : St χ A} (hp : ∀ a k, pending t.out.cur a k = pending s.out.cur a k) (hl : t.out.cur.logs = s.out.cur.logs)
    (hc : t.out.codeUpdates = s.out.codeUpdates) (hr : t.rt.cur.readOnly = true) (hw : SameChain E s t) : Quieted E s t where
  storage a k := by simp only [view, hp, hw a k]
  logs := hl
  code a h := .inl (hc ▸ h)
  readOnly := hr
  chain := hw

theorem Quieted.same {s t : St χ A} (ho : t.out = s.out) (hr : t.rt.cur.readOnly = true) (hw : SameChain E s t) : Quieted E s t :=
  .of (fun _ _ => by rw [ho]) (by rw [ho]) (by rw [ho]) hr hw

theorem Quieted.trans {s t u : St χ A} (h1 : Quieted E s t) (h2 : Quieted E t u) : Quieted E s u where
  storage a k := (h2.storage a k).trans (h1.storage a k)
  logs := h2.logs.trans h1.logs
  code a h := by
    rcases h2.code a h with h | h
    · exact h1.code a h
    · exact .inr h
  readOnly := h2.readOnly
  chain a k := (h2.chain a k).trans (h1.chain a k)

/-- the chain in small steps -/
theorem step_silent (hq : SilentNode E) {s t : St χ A} (h : StepB E Executor.halt s t) : SameChain E s t := by
  cases h with
  | a _ hs =>
    cases hs with
    | world w hw =>
      cases hw with
      | builtin i => exact fun a k => hq.builtin _ _ a k
      | revert n => exact fun a k => hq.revert _ _ a k
    | dest _ i r he _ => exact (halt_dest he).elim
    | same _ i r he _ => exact (halt_same he).elim
    | undo _ i r a ci he => exact (halt_dest he).elim
    | _ => exact fun _ _ => rfl
  | saveCompiled _ _ h c _ _ => exact fun a k => hq.saveCompiled _ _ _ a k
  | finalize =>
    obtain ⟨o, m, ho⟩ := getVMOutput_only (E := E) s
    intro a k; rw [ho]
  | clean _ =>
    intro a k
    unfold St.cleanInstance
    split
    · rfl
    · split <;> rfl
  | failed c new m g h1 h2 h3 =>
    intro a k
    unfold St.cleanInstance
    split
    · rfl
    · split <;> rfl
  | _ => exact fun _ _ => rfl

theorem step_readOnly (hn : NoReadOnlyApi E) {s t : St χ A} (h : StepB E Executor.halt s t) :
    t.rt.cur.readOnly = s.rt.cur.readOnly := by
  cases h with
  | a _ hs =>
    cases hs with
    | rt c hc =>
      cases hc with
      | readOnly b i h => exact absurd h (hn i)
      | _ => rfl
    | dest _ i r he _ => exact (halt_dest he).elim
    | same _ i r he _ => exact (halt_same he).elim
    | undo _ i r a ci he => exact (halt_dest he).elim
    | _ => rfl
  | finalize =>
    obtain ⟨o, m, ho⟩ := getVMOutput_only (E := E) s
    rw [ho]
  | clean _ =>
    unfold St.cleanInstance
    split
    · rfl
    · split <;> rfl
  | failed c new m g h1 h2 h3 =>
    unfold St.cleanInstance
    split
    · rfl
    · split <;> rfl
  | _ => rfl

theorem step_logs (hq : SilentNode E) {s t : St χ A} (h : StepB E Executor.halt s t) (hr : s.rt.cur.readOnly = true) :
    t.out.cur.logs = s.out.cur.logs := by
  cases h with
  | a _ hs =>
    cases hs with
    | out o ho =>
      cases ho with
      | pay snd dst acc dacc v hs hd hv hc => rfl
      | log e h => rw [hr] at h; cases h
      | logs w i b h =>
        show s.out.cur.logs ++ b.out.logs = _
        rw [hq.noLogs w i b h, List.append_nil]
      | _ => rfl
    | deploy d _ _ _ _ _ => rfl
    | dest _ i r he _ => exact (halt_dest he).elim
    | same _ i r he _ => exact (halt_same he).elim
    | undo _ i r a ci he => exact (halt_dest he).elim
    | _ => rfl
  | deploy d _ _ => rfl
  | finalize => exact finalize_logs s
  | clean _ =>
    unfold St.cleanInstance
    split
    · rfl
    · split <;> rfl
  | failed c new m g h1 h2 h3 =>
    unfold St.cleanInstance
    split
    · rfl
    · split <;> rfl
  | _ => rfl

theorem step_code {s t : St χ A} (h : StepB E Executor.halt s t) (hr : s.rt.cur.readOnly = true) :
    ∀ a, a ∈ t.out.codeUpdates → a ∈ s.out.codeUpdates ∨ ∃ d, UpgradeAllowed E d ∧ d.address = a := by
  intro a ha
  cases h with
  | a _ hs =>
    cases hs with
    | deploy d i _ h _ _ => rw [hr] at h; cases h
    | dest _ i r he _ => exact (halt_dest he).elim
    | same _ i r he _ => exact (halt_same he).elim
    | undo _ i r a ci he => exact (halt_dest he).elim
    | _ => exact .inl ha
  | deploy d h _ =>
    have : a = d.address ∨ a ∈ s.out.codeUpdates := by
      have h1 : a ∈ (s.out.deployCode d).codeUpdates := ha
      unfold OutCtx.deployCode at h1
      dsimp only at h1
      split at h1
      · exact .inr h1
      · simpa using h1
    rcases this with rfl | h1
    · exact .inr ⟨d, h, rfl⟩
    · exact .inl h1
  | finalize =>
    obtain ⟨o, m, ho⟩ := getVMOutput_only (E := E) s
    rw [ho] at ha; exact .inl ha
  | clean _ =>
    have : (s.cleanInstance).out = s.out := by
      unfold St.cleanInstance
      split
      · rfl
      · split <;> rfl
    rw [this] at ha; exact .inl ha
  | failed c new m g h1 h2 h3 =>
    have : ((newInstance m g new s).cleanInstance).out = s.out := by
      unfold St.cleanInstance
      split
      · rfl
      · split <;> rfl
    rw [this] at ha; exact .inl ha
  | _ => exact .inl ha

theorem pending_silent (hq : SilentNode E) (o : VMOutput) {b : BuiltinOutput} {w : χ} {i : CallInput} (hb : BuiltinFrom E w i b)
    (a : Addr) (k : Bytes) : pending (addToActive o b).1 a k = pending o a k := by
  obtain ⟨b0, h1, h2⟩ := builtinFrom_storage hb
  rw [pending_builtin, h2, hq.noUpdates w i b0 h1]

theorem readOnly_binary (hq : SilentNode E) (hn : NoReadOnlyApi E) : Binary E (ReadOnlyRel E) where
  refl s hr := .same rfl hr (fun _ _ => rfl)
  trans s t u h1 h2 hr := (h1 hr).trans (h2 (h1 hr).readOnly)
  delete s t a i _ _ hro h hr := by rw [(h hr).readOnly] at hro; cases hro
  step s t h hr := by
    have hw := step_silent hq h
    refine ⟨⟨fun a k => ?_, step_logs hq h hr, step_code h hr⟩, (step_readOnly hn h).trans hr, hw⟩
    rcases step_pending h a k with h1 | ⟨h1, h2⟩ | ⟨_, h1, _⟩
    · simp only [view, h1, hw a k]
    · simp only [view, h1, h2, Option.getD_some, Option.getD_none]
    · rw [hr] at h1; cases h1
  stepH s t h hr := by
    cases h with
    | inst i g hi => exact .same rfl hr (fun _ _ => rfl)
    | world i => exact .same rfl hr (fun a k => hq.builtin _ _ a k)
    | merge i b hb =>
      refine .of (pending_silent hq _ hb) ?_ rfl hr (fun a k => hq.builtin _ _ a k)
      obtain ⟨b0, h1, h2⟩ := builtinFrom_logs hb
      show s.out.cur.logs ++ b.out.logs = _
      rw [h2, hq.noLogs _ _ b0 h1, List.append_nil]
  bcPush s hr := .same rfl hr (fun _ _ => rfl)
  bcPopSet s hr := by
    obtain ⟨h1, _, _, _, _⟩ := bcPopSet_rest (E := E) s
    refine .same h1 ?_ (fun a k => ?_)
    · unfold St.bcPopSet
      split <;> exact hr
    · unfold St.bcPopSet
      split
      · rfl
      · exact hq.revert _ _ a k
  bcPopDiscard s hr := .same rfl hr (fun _ _ => rfl)
  onError e s hr := .of (pending_fail s) (modAcc_logs _ _ _) (by
    show (updateGasOnFailure s).out.codeUpdates = _
    unfold updateGasOnFailure OutCtx.modAcc OutCtx.getAcc
    dsimp only
    split <;> rfl) hr (fun _ _ => rfl)
  dest j s u e info r v hF hu hf hr := by
    have hu := hu hr
    obtain ⟨hl, _, _⟩ := finDest_left e info j s u v r hF hf
    obtain ⟨r', hf'⟩ := finDest_state e info u v _ hf
    have hcur := (finishDest_frame e j s u v _ hF hf').2.1
    have hw : SameChain E s v := fun a k => by rw [hl.world]; exact hu.chain a k
    have hc : ∀ a, a ∈ v.out.codeUpdates → a ∈ s.out.codeUpdates ∨ ∃ d, UpgradeAllowed E d ∧ d.address = a := fun a ha =>
      hu.code a (hl.codeUpdates ▸ ha)
    by_cases hok : r.output.returnCode = .ok
    · have ho := (hl.ok hok).1
      refine ⟨⟨fun a k => ?_, ?_, hc⟩, hcur ▸ hr, hw⟩
      · have h1 := hu.storage a k
        have h2 : view E (enterDestState j s) a k = view E s a k := rfl
        rw [h2] at h1
        simp only [view, ho, pending_mergeOut, pending_destOutput, hl.world] at h1 ⊢
        cases hp : pending u.out.cur a k with
        | some x => rw [hp] at h1; exact h1
        | none =>
          rw [hp] at h1
          dsimp only
          rw [hu.chain a k]
          rfl
      · rw [ho]
        show s.out.cur.logs ++ (destOutput E e u).2.out.cur.logs = _
        have h3 : u.out.cur.logs = [] := hu.logs
        rw [destOutput_logs, h3, List.append_nil]
    · have ho := (hl.failed hok).1
      exact ⟨⟨fun a k => by simp only [view, ho, hw a k], by rw [ho], hc⟩, hcur ▸ hr, hw⟩
  same i s u e v hF hu hf hr := by
    have hu := hu hr
    have hcur := (finishSame_frame e i s u v _ hF hf).2.1
    have hw1 := finishSame_chain hq.revert hf
    have hw : SameChain E s v := fun a k => (hw1 a k).trans (hu.chain a k)
    have hs : u.out.stack = s.out.cur :: s.out.stack := by
      have : u.out.stack = mergeOut {} s.out.cur :: s.out.stack := hF.out
      rw [this, mergeOut_empty]
    obtain ⟨_, _, p1, p2⟩ := finishSame_storage hs hf
    have hcu : v.out.codeUpdates = u.out.codeUpdates ∧
        (¬ (u.out.cur.returnCode = .ok ∧ e = none) → v.out.cur.logs = s.out.cur.logs) ∧
        ((u.out.cur.returnCode = .ok ∧ e = none) → v.out.cur.logs = u.out.cur.logs) := by
      by_cases hc : u.out.cur.returnCode = .ok ∧ e = none
      · obtain ⟨h1, rfl⟩ := hc
        rw [finishSame_ok u h1] at hf
        obtain ⟨o', m, ho⟩ := getVMOutput_only (E := E) u
        have hlg := finalize_logs (E := E) u
        generalize (getVMOutput E u).1 = x at hf
        generalize (getVMOutput E u).2 = y at hf ho hlg
        obtain ⟨r', ins', hr', _, _⟩ := restoreGas_only x.gasRemaining (popSameOk y)
        rw [hr'] at hf
        simp only [Prod.mk.injEq] at hf
        obtain ⟨_, rfl⟩ := hf
        show (popSameOk y).out.codeUpdates = _ ∧ (_ → (popSameOk y).out.cur.logs = _) ∧ (_ → (popSameOk y).out.cur.logs = _)
        unfold popSameOk
        rw [(rtPopSet_keeps _).1]
        exact ⟨(show y.out.codeUpdates = _ by rw [ho]), fun h => absurd ⟨h1, rfl⟩ h, fun _ => hlg⟩
      · have hc' : u.out.cur.returnCode ≠ .ok ∨ e.isSome := by
          by_cases h1 : u.out.cur.returnCode = .ok
          · cases e with
            | none => exact absurd ⟨h1, rfl⟩ hc
            | some e => exact .inr rfl
          · exact .inl h1
        rw [finishSame_fail e u hc'] at hf
        simp only [Prod.mk.injEq, true_and] at hf
        subst hf
        unfold popSameFail
        rw [(bcPopSet_rest (E := E) _).1, (rtPopSet_keeps _).1]
        simp only [OutCtx.popSet, hs]
        exact ⟨trivial, fun _ => trivial, fun h => absurd h hc⟩
    have hc : ∀ a, a ∈ v.out.codeUpdates → a ∈ s.out.codeUpdates ∨ ∃ d, UpgradeAllowed E d ∧ d.address = a := fun a ha =>
      hu.code a (hcu.1 ▸ ha)
    by_cases hok : u.out.cur.returnCode = .ok ∧ e = none
    · refine ⟨⟨fun a k => ?_, (hcu.2.2 hok).trans hu.logs, hc⟩, hcur ▸ hr, hw⟩
      have h1 := hu.storage a k
      have h2 : view E (enterSameState E i s) a k = view E s a k := rfl
      rw [← h2, ← h1]
      simp only [view, p2 hok, hw1 a k]
    · exact ⟨⟨fun a k => by simp only [view, p1 hok, hw a k], hcu.2.1 hok, hc⟩, hcur ▸ hr, hw⟩

/-! ### The API function -/

/-- world and the reported accounts, logs and code are the given ones -/
structure Frozen (s0 s : St χ A) : Prop where
  world : s.world = s0.world
  accounts : s.out.cur.accounts = s0.out.cur.accounts
  logs : s.out.cur.logs = s0.out.cur.logs
  code : s.out.codeUpdates = s0.out.codeUpdates

theorem Frozen.kept {s t : St χ A} (h : Frozen s t) : ReadOnlyKept E s t :=
  ⟨fun a k => by simp only [view, Spec.pending, h.world, h.accounts], h.logs, fun a ha => .inl (h.code ▸ ha)⟩
theorem ReadOnlyKept.trans {s t u : St χ A} (h1 : ReadOnlyKept E s t) (h2 : ReadOnlyKept E t u) : ReadOnlyKept E s u where
  storage a k := (h2.storage a k).trans (h1.storage a k)
  logs := h2.logs.trans h1.logs
  code a h := by
    rcases h2.code a h with h | h
    · exact h1.code a h
    · exact .inr h

theorem frozen_setPointsUsed {s0 : St χ A} (g : UInt64) : Keeps (Frozen s0) (setPointsUsed g) := by
  intro s a t h he
  simp only [setPointsUsed] at he
  split at he
  · simp at he
  · simp only [Prod.mk.injEq] at he; rw [← he.2]; exact ⟨h.1, h.2, h.3, h.4⟩
theorem frozen_setBreakpoint {s0 : St χ A} (b : Breakpoint) : Keeps (Frozen s0) (setBreakpoint b) := by
  intro s a t h he
  simp only [setBreakpoint] at he
  split at he
  · simp at he
  · simp only [Prod.mk.injEq] at he; rw [← he.2]; exact ⟨h.1, h.2, h.3, h.4⟩
theorem frozen_memStore {s0 : St χ A} (o : Int32) (d : Bytes) : Keeps (Frozen s0) (memStore E o d) := by
  intro s a t h he
  simp only [memStore] at he
  split at he
  · simp only [Prod.mk.injEq] at he; rw [← he.2]; exact h
  · split at he
    · simp at he
    · split at he
      · simp at he
      · simp only [Prod.mk.injEq] at he; rw [← he.2]; exact ⟨h.1, h.2, h.3, h.4⟩

theorem frozen_runCmd {ex : Executor χ A} {s0 : St χ A} (c : Cmd) (h : c.power = none) : Keeps (Frozen s0) (runCmd E ex c) := by
  cases c <;> first | (exfalso; cases h; done) | skip
  case useGas n => exact tri_get' fun _ => frozen_setPointsUsed _
  case memStore off data => exact frozen_memStore off data
  case failExecution e =>
    exact keep_bind (keep_modify fun _ h => ⟨h.1, h.2, h.3, h.4⟩) fun _ => frozen_setBreakpoint _
  case outOfGas => exact frozen_setBreakpoint _

/-- C11, calls of contracts: whatever a contract does that is called in read-only mode, on its own or on the caller's context, it
leaves storage, logs and code alone, as long as no contract makes a read-only call (there is none in the API). -/
theorem c11_calls_partial (hq : SilentNode E) (hn : NoReadOnlyApi E) {n : Nat} {i : CallInput} {s t : St χ A}
    (hr : s.rt.cur.readOnly = true)
    (h : (∃ r, (execN E n).dest i s = (.ok r, t)) ∨ ∃ r, (execN E n).same i s = (.ok r, t)) :
    ReadOnlyKept E s t ∧ t.rt.cur.readOnly = true := by
  have hx := (readOnly_binary hq hn).nested n
  have h1 : Quieted E s t := by
    rcases h with ⟨r, h⟩ | ⟨r, h⟩
    · exact hx.dest i s r t h hr
    · exact hx.same i s r t h hr
  exact ⟨h1.toReadOnlyKept, h1.readOnly⟩

/-- one command of the API function -/
theorem readOnly_cmd {E' : Env χ A} (hq : SilentNode E') (hn : NoReadOnlyApi E') (hh : E'.hook = E.hook) {n : Nat} {i : CallInput}
    {s t : St χ A} {r : Option Err} (h : runCmd E (execN E' n) (.executeReadOnly i) s = (.ok r, t)) : ReadOnlyKept E s t := by
  have h : (M.modify (fun s => { s with rt := { s.rt with cur := { s.rt.cur with readOnly := true } } }) >>= fun _ =>
    (execN E' n).same i >>= fun r =>
    M.modify (fun s => { s with rt := { s.rt with cur := { s.rt.cur with readOnly := false } } }) >>= fun _ => pure r) s = (.ok r, t) := h
  rw [modify_bind] at h
  rcases bind_ok h with ⟨a, u, h1, h2⟩ | ⟨_, h2⟩ | ⟨_, h2⟩
  · rw [modify_bind] at h2
    have h3 : _ = t := congrArg Prod.snd h2
    have h4 := (c11_calls_partial hq hn rfl (.inr ⟨a, h1⟩)).1
    subst h3
    have hv : ∀ (s : St χ A) a k, view E' s a k = view E s a k := fun s a k => by simp only [view, hh]
    have hu : ∀ d, UpgradeAllowed E' d → UpgradeAllowed E d := fun d hd => by unfold UpgradeAllowed at hd; rw [hh] at hd; exact hd
    refine ⟨fun a k => ?_, h4.logs, fun a ha => ?_⟩
    · have := h4.storage a k
      rw [hv, hv] at this
      exact this
    · rcases h4.code a ha with h | ⟨d, h, h'⟩
      · exact .inl h
      · exact .inr ⟨d, hu d h, h'⟩
  · simp at h2
  · simp at h2

theorem readOnly_interp {E' : Env χ A} (hq : SilentNode E') (hn : NoReadOnlyApi E') (hh : E'.hook = E.hook) {n : Nat} {α : Type}
    (p : Free χ A α) (hp : ∀ c, MayRun c p → c.power = none ∨ ∃ i, c = .executeReadOnly i) :
    ∀ {s t : St χ A} {r : α}, interp E (execN E' n) p s = (.ok r, t) → ReadOnlyKept E s t := by
  induction p with
  | pure a =>
    intro s t r h
    simp only [interp, M.pure_eq, M.pure, Prod.mk.injEq] at h
    rw [← h.2]; exact Frozen.kept ⟨rfl, rfl, rfl, rfl⟩
  | panic => intro s t r h; simp [interp, M.panic] at h
  | ask k ih => intro s t r h; exact ih s (fun c hc => hp c ⟨s, hc⟩) h
  | op c k ih =>
    intro s t r h
    rcases bind_ok h with ⟨a, u, h1, h2⟩ | ⟨_, h2⟩ | ⟨_, h2⟩
    · refine ReadOnlyKept.trans ?_ (ih a (fun c hc => hp c (.inr ⟨a, hc⟩)) h2)
      rcases hp c (.inl rfl) with hc | ⟨i, rfl⟩
      · exact (frozen_runCmd c hc s a u ⟨rfl, rfl, rfl, rfl⟩ h1).kept
      · exact readOnly_cmd hq hn hh h1
    · simp at h2
    · simp at h2

theorem runCmd_plain {ex ex' : Executor χ A} (c : Cmd) (h : c.power = none) : runCmd E ex c = runCmd E ex' c := by
  cases c <;> first | (exfalso; cases h; done) | rfl

/-- the same with the full API -/
theorem interp_more {ex ex' : Executor χ A} (hx : ∀ i s r t, ex'.same i s = (.ok r, t) → ex.same i s = (.ok r, t)) {α : Type} (p : Free χ A α)
    (hp : ∀ c, MayRun c p → c.power = none ∨ ∃ i, c = .executeReadOnly i) :
    ∀ {s t : St χ A} {r : α}, interp E ex' p s = (.ok r, t) → interp E ex p s = (.ok r, t) := by
  induction p with
  | pure a => intro s t r h; exact h
  | panic => intro s t r h; exact h
  | ask k ih => intro s t r h; exact ih s (fun c hc => hp c ⟨s, hc⟩) h
  | op c k ih =>
    intro s t r h
    rcases bind_ok h with ⟨a, u, h1, h2⟩ | ⟨_, h2⟩ | ⟨_, h2⟩
    · have h3 : runCmd E ex c s = (.ok a, u) := by
        rcases hp c (.inl rfl) with hc | ⟨i, rfl⟩
        · rw [runCmd_plain c hc (ex' := ex')]; exact h1
        · have h1 : (M.modify (fun s => { s with rt := { s.rt with cur := { s.rt.cur with readOnly := true } } }) >>= fun _ =>
            ex'.same i >>= fun r =>
            M.modify (fun s => { s with rt := { s.rt with cur := { s.rt.cur with readOnly := false } } }) >>= fun _ => pure r) s = (.ok a, u) := h1
          show (M.modify (fun s => { s with rt := { s.rt with cur := { s.rt.cur with readOnly := true } } }) >>= fun _ =>
            ex.same i >>= fun r =>
            M.modify (fun s => { s with rt := { s.rt with cur := { s.rt.cur with readOnly := false } } }) >>= fun _ => pure r) s = (.ok a, u)
          rw [modify_bind] at h1 ⊢
          rcases bind_ok h1 with ⟨b, v, h3, h4⟩ | ⟨_, h4⟩ | ⟨_, h4⟩
          · simp only [M.bind_eq, M.bind, hx _ _ _ _ h3]
            exact h4
          · simp at h4
          · simp at h4
      show (runCmd E ex c >>= fun r => interp E ex (k r)) s = _
      simp only [M.bind_eq, M.bind, h3]
      exact ih a (fun c hc => hp c (.inr ⟨a, hc⟩)) h2
    · simp at h2
    · simp at h2

/-- C11, the API function: if a contract calls `executeReadOnly` and no contract that is called, directly or not, calls
`executeReadOnly` again (the call returns although that function aborts for them), then storage, logs and code are afterwards what
they were before. -/
theorem c11_partial {E : Env χ EeiCall} (hE : E.api = eei E) (hq : SilentNode E) {n : Nat} {gas : Int64}
    {addrOff fOff fLen num lenOff dataOff : Int32} {s t : St χ EeiCall} {r : Int64}
    (h : interp E (execN (E.without [.readOnly]) n) (eei E (.executeReadOnly gas addrOff fOff fLen num lenOff dataOff)) s = (.ok r, t)) :
    interp E (execN E n) (eei E (.executeReadOnly gas addrOff fOff fLen num lenOff dataOff)) s = (.ok r, t) ∧ ReadOnlyKept E s t := by
  have hp : ∀ c, MayRun c (eei E (.executeReadOnly gas addrOff fOff fLen num lenOff dataOff)) → c.power = none ∨ ∃ i, c = .executeReadOnly i := by
    intro c hc
    have hw : c.Within [.readOnly] := Classical.byContradiction fun hn =>
      Eei.Only.not_mayRun (fun _ h => hn h.1) (Eei.eei_proper E (.executeReadOnly gas addrOff fOff fLen num lenOff dataOff)) hc
    cases hpw : c.power with
    | none => exact .inl rfl
    | some p =>
      have := hw p hpw
      simp only [List.mem_singleton] at this
      subst this
      cases c <;> first | (cases hpw; done) | exact .inr ⟨_, rfl⟩
  refine ⟨interp_more (fun i s r t h => same_panics (fun a => ?_) h) _ hp h, readOnly_interp (E := E) (E' := E.without [.readOnly]) ⟨hq.1, hq.2, hq.3, hq.4, hq.5⟩ (noReadOnly_without (by decide)) rfl _ hp h⟩
  show (if _ then _ else _) = _ ∨ (if _ then _ else _) = _
  rw [hE]
  split
  · exact .inl rfl
  · exact .inr rfl

/-! ### Nested read-only calls end read-only mode -/

section
open Fixture

/-- contract 101: `f` makes a read-only call of its own `g` and then stores, `g` stores and logs -/
def readMods : List (Bytes × WasmModule EeiCall) :=
  [([2], mod [(f, callReadOnly (addr 101) g 1000 <| put [107] [1] .ret), (g, put [107] [2] <| log [3] .ret)])]
def readEnv : Env World EeiCall := Env.real { envWith readMods with hook := { hook with revert := fun w _ => w } }
/-- contract 100 runs, with the address of 101 in its memory, and a function name -/
def readStart (fn : Bytes) : St World EeiCall :=
  { running (addr 101 ++ List.replicate 32 0 ++ fn) 100000 with world := node [(addr 100, contract [1]), (addr 101, contract [2])] }
def readFun : EeiCall := .executeReadOnly 50000 0 64 1 0 0 0

theorem readEnv_silent : SilentNode readEnv where
  builtin := fun _ _ _ _ => rfl
  revert := fun _ _ _ _ => rfl
  saveCompiled := fun _ _ _ _ _ => rfl
  noUpdates := by
    intro w i b hb a k
    cases hb
    rfl
  noLogs := by
    intro w i b hb
    cases hb
    rfl

/-- what the read-only call of a function leaves under key `k` of the caller, and the logs -/
def readRun (E E' : Env World EeiCall) (fn : Bytes) : Option (Int64 × Bytes × List LogEntry) :=
  match interp E (execN E' 5) (eei E readFun) (readStart fn) with
  | (.ok r, t) => some (r, view E t (addr 100) [107], t.out.cur.logs)
  | _ => none

/-- C11 does not hold for all contracts: a contract that runs in read-only mode and makes a read-only call itself is no longer
in read-only mode afterwards, and its store takes effect. -/
theorem c11_neg : ∃ (E : Env World EeiCall) (n : Nat) (gas : Int64) (addrOff fOff fLen num lenOff dataOff : Int32)
    (s t : St World EeiCall) (r : Int64) (a : Addr) (k : Bytes), E.api = eei E ∧ SilentNode E ∧
    interp E (execN E n) (eei E (.executeReadOnly gas addrOff fOff fLen num lenOff dataOff)) s = (.ok r, t) ∧
    view E s a k = [] ∧ view E t a k = [1] := by
  have h : (match readRun readEnv readEnv f with | some (_, v, _) => decide (v = [1]) | none => false) = true := by decide +kernel
  have h0 : view readEnv (readStart f) (addr 100) [107] = [] := by decide +kernel
  unfold readRun at h
  generalize hq : interp readEnv (execN readEnv 5) (eei readEnv readFun) (readStart f) = q at h
  obtain ⟨r, t⟩ := q
  cases r with
  | ok r => exact ⟨readEnv, 5, 50000, 0, 64, 1, 0, 0, 0, readStart f, t, r, addr 100, [107], rfl, readEnv_silent, hq, h0, of_decide_eq_true h⟩
  | panic => cases h
  | oof => cases h

/-- the hypotheses of `c11_partial` are met by the call of `g`, whose store and log have no effect; outside of read-only mode they
have -/
example : readRun readEnv (readEnv.without [.readOnly]) g = some (0, [], []) := by decide +kernel
example : (match runCmd readEnv (execN readEnv 5) (.executeOnSame { vm := { caller := addr 100, gasProvided := 50000 }, recipient := addr 101, function := g }) (readStart g) with
    | (.ok r, t) => some (r, view readEnv t (addr 100) [107], t.out.cur.logs.length)
    | _ => none) = some (none, [2], 1) := by decide +kernel
/-- the hypotheses of `c11_calls_partial` -/
example : NoReadOnlyApi (readEnv.without [.readOnly]) ∧ SilentNode (readEnv.without [.readOnly]) :=
  ⟨noReadOnly_without (by decide), readEnv_silent.1, readEnv_silent.2, readEnv_silent.3, readEnv_silent.4, readEnv_silent.5⟩

end

end Arwen.Props
