import Verif.Spec.Driver
import Verif.Props.IpcParts
/-
C67: the node keeps working with the Arwen process across crashes and restarts.
-/
namespace Arwen.Props
open Arwen.Ipc Arwen.Spec
variable {W H : Type}

/-! ### Dialogues with a process that may die -/

/-- no question of the gateway is taken for a response -/
theorem question_goes_on (f : HookFn) (kind : Kind) (h : f.requestKind = some kind) : endsLoop kind = false := by
  cases f <;> cases h <;> decide

theorem arrived_kind (m : Msg) : m.arrived.kind = m.kind := by
  unfold Msg.arrived; split <;> rfl

theorem ask_not_ended (N : Node W) (f : HookFn) (a : Args f) (s t : Sys W) (m : Msg) : askNode N f a s ≠ (.ended m, t) := by
  intro h
  unfold askNode at h
  cases hk : f.requestKind with
  | none => rw [hk] at h; cases h
  | some kind =>
    rw [hk] at h
    simp only [Messenger.send] at h
    have hq : ({ nonce := s.arwen.nonce + 1, kind := kind, body := .request f a } : Msg).arrived.kind = kind := arrived_kind _
    split at h
    · cases h
    · simp only [hq, question_goes_on f kind hk] at h
      cases hc : isHookCall kind
      · simp only [hc] at h
        cases h
      · simp only [hc, if_true] at h
        split at h
        · cases h
        · split at h
          · cases h
          · split at h <;> cases h

theorem until_ret {R : Type} (N : Node W) (c : Option Nat) (r : R) (s : Sys W) :
    runIpcUntil N (.ret r) c s = if c = some 0 then (.failed .arwenGone, s) else (.done r, s) := by
  rw [runIpcUntil]

theorem until_ask {R : Type} (N : Node W) (c : Option Nat) (f : HookFn) (a : Args f) (k : Except Bytes (Result f) → IProg R)
    (s : Sys W) : runIpcUntil N (.ask f a k) c s = if c = some 0 then (.failed .arwenGone, s) else
      match askNode N f a s with
      | (.done ans, s) => runIpcUntil N (k ans) (c.map (· - 1)) s
      | (.ended m, s) => (.ended m, s)
      | (.failed e, s) => (.failed e, s) := by
  rw [runIpcUntil]
  rfl

theorem until_not_ended {R : Type} (N : Node W) (p : IProg R) (c : Option Nat) (s t : Sys W) (m : Msg) :
    runIpcUntil N p c s ≠ (.ended m, t) := by
  induction p generalizing c s with
  | ret r =>
    intro h
    rw [until_ret] at h
    split at h <;> cases h
  | ask f a k ih =>
    intro h
    rw [until_ask] at h
    split at h
    · cases h
    · generalize ha : askNode N f a s = q at h
      obtain ⟨q, t'⟩ := q
      cases q with
      | done ans => exact ih ans _ _ h
      | ended m' => exact ask_not_ended N f a s t' m' ha
      | failed e => cases h

/-- a process that lives long enough runs as any other -/
theorem until_none {R : Type} (N : Node W) (p : IProg R) (s : Sys W) : runIpcUntil N p none s = runIpc N p s := by
  induction p generalizing s with
  | ret r => rfl
  | ask f a k ih =>
    rw [until_ask, if_neg (by intro h; cases h)]
    unfold runIpc
    generalize askNode N f a s = q
    obtain ⟨q, t⟩ := q
    cases q with
    | done ans => exact ih ans t
    | ended m => rfl
    | failed e => rfl

theorem loop_none (N : Node W) (vm : Machine H) (request : Msg) (s : Sys W) (h : H) :
    startLoopUntil N vm none request s h = startLoop N vm request s h := by
  unfold startLoopUntil startLoop
  simp only [until_none]
  generalize s.node.send request = q
  obtain ⟨node, m⟩ := q
  dsimp only
  generalize s.arwen.receive m.arrived = x
  cases x with
  | none => rfl
  | some arwen =>
    dsimp only
    generalize arwenReply N.ord vm m.arrived h = y
    cases y with
    | none => rfl
    | some p =>
      dsimp only
      generalize runIpc N p _ = z
      obtain ⟨z, t⟩ := z
      cases z with
      | failed e => rfl
      | ended m => rfl
      | done r =>
        obtain ⟨resp, h'⟩ := r
        dsimp only
        generalize t.arwen.send resp = v
        obtain ⟨arwen', resp'⟩ := v
        dsimp only
        generalize nodeReceive N resp'.arrived _ = u
        cases u with
        | error e => rfl
        | ok u =>
          dsimp only
          cases isHookCall resp'.arrived.kind <;> cases endsLoop resp'.arrived.kind <;> rfl

/-- results of a run that went to its end come from the program -/
theorem until_ends {R : Type} (N : Node W) (P : R → Prop) (p : IProg R) (hp : Ends P p) (c : Option Nat) (s t : Sys W) (r : R)
    (h : runIpcUntil N p c s = (.done r, t)) : P r := by
  induction p generalizing c s with
  | ret r' =>
    rw [until_ret] at h
    split at h
    · cases h
    · cases h
      exact hp
  | ask f a k ih =>
    rw [until_ask] at h
    split at h
    · cases h
    · generalize ha : askNode N f a s = q at h
      obtain ⟨q, t'⟩ := q
      cases q with
      | done ans => exact ih ans (hp ans) _ _ h
      | ended m' => cases h
      | failed e => cases h

theorem ends_map {R S : Type} (P : S → Prop) (g : R → S) (p : IProg R) (h : Ends (fun r => P (g r)) p) :
    Ends P (arwenReply.mapProg g p) := by
  induction p with
  | ret r => exact h
  | ask f a k ih => exact fun x => ih x (h x)

theorem ask_time (N : Node W) (f : HookFn) (a : Args f) (s t : Sys W) (ans : Except Bytes (Result f)) (kind : Kind)
    (hk : f.requestKind = some kind) (h : askNode N f a s = (.done ans, t)) : (N.clock s.received : Int) ≤ s.remaining := by
  unfold askNode at h
  rw [hk] at h
  simp only [Messenger.send] at h
  split at h
  · cases h
  · next q heq =>
    unfold nodeReceive at heq
    split at heq
    · cases heq
    · split at heq
      · cases heq
      · split at heq
        · cases heq
        · dsimp only at *
          omega

/-- a run over the pipe that went to its end, in time, is the run inside the node -/
theorem until_direct {R : Type} (N : Node W) (hp : PlainErrors N) (p : IProg R) (c : Option Nat) (s t : Sys W) (r : R)
    (ha : Asks Supported p) (hs : s.node.nonce = s.arwen.nonce) (h : runIpcUntil N p c s = (.done r, t)) :
    r = (runDirect N.hook p s.world).1 ∧ t.world = (runDirect N.hook p s.world).2 ∧ t.node.nonce = t.arwen.nonce := by
  induction p generalizing c s with
  | ret r' =>
    rw [until_ret] at h
    split at h
    · cases h
    · cases h
      exact ⟨rfl, rfl, hs⟩
  | ask f a k ih =>
    rw [until_ask] at h
    split at h
    · cases h
    · obtain ⟨hf, hk⟩ := ha
      generalize ha : askNode N f a s = q at h
      obtain ⟨q, t'⟩ := q
      cases q with
      | ended m' => cases h
      | failed e => cases h
      | done ans =>
        obtain ⟨kind, e1, _⟩ := tables f hf.1 hf.2.1
        have hstep := c38_answered_partial N hp f a s hf hs (ask_time N f a s t' ans kind e1 ha)
        rw [ha] at hstep
        cases hstep
        exact ih _ _ _ (hk _) rfl h

/-! ### One request -/

/-- what is known of the state of the virtual machine and of the messengers after a dialogue -/
theorem loop_state (N : Node W) (vm : Machine H) (c : Option Nat) (request : Msg) (s : Sys W) (h : H) (P : H → Prop) (hh : P h)
    (hr : ∀ n p, arwenReply N.ord vm ({ request with nonce := n } : Msg).arrived h = some p → Ends (fun r => P r.2) p) :
    P (startLoopUntil N vm c request s h).2.2 ∧ (startLoopUntil N vm c request s h).2.1.node = {} ∧
      ((∃ m, (startLoopUntil N vm c request s h).1 = .ok m) → (startLoopUntil N vm c request s h).2.1.arwen = {}) := by
  unfold startLoopUntil
  simp only [Messenger.send]
  split
  · exact ⟨hh, rfl, fun h => by obtain ⟨m, h⟩ := h; cases h⟩
  · split
    · exact ⟨hh, rfl, fun h => by obtain ⟨m, h⟩ := h; cases h⟩
    · next p hp =>
      split
      · exact ⟨hh, rfl, fun h => by obtain ⟨m, h⟩ := h; cases h⟩
      · next heq => exact absurd heq (until_not_ended N p c _ _ _)
      · next resp h' t heq =>
        have hP := until_ends N (fun r => P r.2) p (hr _ p hp) c _ _ _ heq
        split
        · exact ⟨hP, rfl, fun h => by obtain ⟨m, h⟩ := h; cases h⟩
        · next t' ht =>
          have ht' : t'.arwen = {} := by
            unfold nodeReceive at ht
            split at ht
            · cases ht
            · split at ht
              · cases ht
              · split at ht
                · cases ht
                · cases ht; rfl
          exact ⟨hP, rfl, fun _ => ht'⟩

/-- a request for a run that got its response got it from the run inside the node -/
theorem loop_direct (N : Node W) (vm : Machine H) (hp : PlainErrors N) (c : Option Nat) (request : Msg) (s : Sys W) (h : H)
    (hs : s.node.nonce = s.arwen.nonce) (ha : creates request.kind = request.body.goType)
    (p : IProg ((Option RawOutput × Option Bytes) × H))
    (hreply : ∀ n, arwenReply N.ord vm { request with nonce := n } h =
      some (arwenReply.mapProg (fun r => (contractResponse N.ord r.1, r.2)) p))
    (hask : Asks Supported p) (m : Msg) (hm : (startLoopUntil N vm c request s h).1 = .ok m) :
    (∃ n, m = { contractResponse N.ord (runDirect N.hook p s.world).1.1 with nonce := n }) ∧
      (startLoopUntil N vm c request s h).2.2 = (runDirect N.hook p s.world).1.2 ∧
      (startLoopUntil N vm c request s h).2.1.world = (runDirect N.hook p s.world).2 := by
  have harr : ∀ n, ({ request with nonce := n } : Msg).arrived = { request with nonce := n } := by
    intro n
    rw [Msg.arrived, if_pos]
    exact ha
  have hrec : s.arwen.receive ({ request with nonce := s.node.nonce + 1 } : Msg) = some { nonce := s.node.nonce + 1 } := by
    rw [Messenger.receive, if_neg]
    simp only [hs]
    exact fun h => h rfl
  unfold startLoopUntil at hm ⊢
  simp only [Messenger.send] at hm ⊢
  rw [harr, hrec] at hm ⊢
  dsimp only at hm ⊢
  rw [hreply] at hm ⊢
  dsimp only at hm ⊢
  split at hm
  · cases hm
  · next heq => exact absurd heq (until_not_ended N _ c _ _ _)
  · next resp h' t heq =>
    obtain ⟨e1, e2, e3⟩ := until_direct N hp _ c _ _ _ (asks_map _ _ _ hask) (by rfl) heq
    rw [direct_map] at e1 e2
    dsimp only at e1 e2
    have e1a : resp = contractResponse N.ord (runDirect N.hook p s.world).1.1 := congrArg Prod.fst e1
    have e1b : h' = (runDirect N.hook p s.world).1.2 := congrArg Prod.snd e1
    have harr2 : ∀ n, ({ resp with nonce := n } : Msg).arrived = { resp with nonce := n } := by
      intro n
      rw [Msg.arrived, if_pos]
      rw [e1a]; rfl
    simp only [harr2] at hm ⊢
    split at hm
    · cases hm
    · next t' ht =>
      have hw : t'.world = t.world := by
        unfold nodeReceive at ht
        split at ht
        · cases ht
        · split at ht
          · cases ht
          · split at ht
            · cases ht
            · cases ht; rfl
      split at hm
      · cases hm
        exact ⟨⟨_, by rw [e1a]⟩, e1b, by rw [hw]; exact e2⟩
      · cases hm

/-! ### One operation -/

theorem new_ready (N : Node W) (boot : GasTable → H) (g : GasTable) (w : W) : InStep (newDriver N boot g w) := by
  refine ⟨rfl, ?_⟩
  intro a h e
  cases e
  rfl

/-- a dialogue does not touch the schedule or the counters -/
theorem converse_keeps (N : Node W) (vm : Machine H) (c : Option Nat) (q : Msg) (d : Driver W H) :
    (converse N vm c q d).2.gas = d.gas ∧ (converse N vm c q d).2.deploys = d.deploys ∧ (converse N vm c q d).2.calls = d.calls := by
  unfold converse
  split <;> exact ⟨rfl, rfl, rfl⟩

theorem ends_true {R : Type} (p : IProg R) : Ends (fun _ => True) p := by
  induction p with
  | ret r => trivial
  | ask f a k ih => exact ih

theorem converse_node (N : Node W) (vm : Machine H) (c : Option Nat) (q : Msg) (d : Driver W H) :
    (converse N vm c q d).2.node = {} := by
  unfold converse
  split
  · next arwen h _ => exact (loop_state N vm c q _ h (fun _ => True) trivial (fun _ p _ => ends_true p)).2.1
  · rfl

/-- an answered request was answered by a running process -/
theorem converse_ok (N : Node W) (vm : Machine H) (c : Option Nat) (q m : Msg) (d : Driver W H) (hd : InStep d)
    (h : (converse N vm c q d).1 = .ok m) :
    ∃ h0 t h1, d.proc = .running {} h0 ∧ startLoopUntil N vm c q { world := d.world } h0 = (.ok m, t, h1) ∧
      (converse N vm c q d).2.proc = .running {} h1 ∧ (converse N vm c q d).2.world = t.world := by
  obtain ⟨hn, ha⟩ := hd
  unfold converse at h ⊢
  split at h
  · next arwen h0 hp =>
    rw [hp]
    have e := ha _ _ hp
    subst e
    rw [hn] at h ⊢
    have hs := loop_state N vm c q ({ node := {}, arwen := {}, world := d.world } : Sys W) h0 (fun _ => True) trivial
      (fun _ p _ => ends_true p)
    have h2 := hs.2.2 ⟨m, h⟩
    refine ⟨h0, _, _, rfl, Prod.ext h rfl, ?_, rfl⟩
    dsimp only at h ⊢
    rw [h]
    dsimp only
    rw [h2]
  · cases h

theorem converse_missing (N : Node W) (vm : Machine H) (c : Option Nat) (q : Msg) (d : Driver W H) (h : d.proc ≠ .missing) :
    (converse N vm c q d).2.proc ≠ .missing := by
  unfold converse
  split
  · dsimp only
    split <;> (intro h; cases h)
  · exact h

theorem close_eq (d : Driver W H) (h : d.proc ≠ .missing) : closeArwen d = some { d with proc := .closed } := by
  unfold closeArwen
  split
  · next e => exact absurd e h
  · rfl

/-- What one operation comes to, if the node does not panic. -/
inductive Shape (N : Node W) (vm : Machine H) (boot : GasTable → H) (f : Faults) (op : Op) (d : Driver W H) (r : Returned)
    (d' : Driver W H) : Prop
  /-- the process is closed -/
  | closed (e : LoopErr) : r = op.failed e → d'.proc = .closed → Shape N vm boot f op d r d'
  /-- the process could not be started -/
  | start (e : LoopErr) : r = op.failed e → d.proc = .closed → f.start = .noProcess ∧ d'.proc = .missing ∨
      f.start = .noArguments ∧ d'.proc = .orphan ∨
      f.start = .noLogs ∧ d'.proc = .running {} (boot d'.gas) → Shape N vm boot f op d r d'
  /-- the process has answered -/
  | answered (h : H) (w : W) (m : Msg) (t : Sys W) (h' : H) : Serves N boot (op.prepare d) h w → f.dies = false ∨ d.proc = .closed →
      startLoopUntil N vm f.crash op.request { world := w } h = (.ok m, t, h') → op.reads N m = (r, false) →
      d'.proc = .running {} h' → d'.world = t.world → Shape N vm boot f op d r d'

theorem prepare_proc (op : Op) (d : Driver W H) : (op.prepare d).proc = d.proc ∧ (op.prepare d).node = d.node ∧
    (op.prepare d).world = d.world := by
  cases op <;> exact ⟨rfl, rfl, rfl⟩

theorem idle_keeps (d : Driver W H) (b : Bool) : (d.afterIdle b).gas = d.gas ∧ (d.afterIdle b).node = d.node ∧
    (d.afterIdle b).world = d.world ∧ (d.afterIdle b).deploys = d.deploys ∧ (d.afterIdle b).calls = d.calls := by
  unfold Driver.afterIdle
  split <;> exact ⟨rfl, rfl, rfl, rfl, rfl⟩

/-- a process that runs or is closed after the idle time was so before, and has not died -/
theorem idle_proc (d : Driver W H) (b : Bool) : ((d.afterIdle b).proc = d.proc ∧ (b = false ∨ ∀ a h, d.proc ≠ .running a h)) ∨
    (d.afterIdle b).proc = .crashed := by
  cases b with
  | false => exact .inl ⟨rfl, .inl rfl⟩
  | true =>
    obtain ⟨g, p, n, w, x, y⟩ := d
    cases p
    case running => exact .inr rfl
    all_goals exact .inl ⟨rfl, .inr fun a h e => by cases e⟩

theorem prepare_gas (op : Op) (d e : Driver W H) (h : d.gas = e.gas) (h1 : d.deploys = e.deploys) (h2 : d.calls = e.calls) :
    (op.prepare d).gas = (op.prepare e).gas ∧ (op.prepare d).deploys = (op.prepare e).deploys ∧
      (op.prepare d).calls = (op.prepare e).calls := by
  cases op <;> simp only [Op.prepare, h, h1, h2] <;> exact ⟨trivial, trivial, trivial⟩

theorem start_keeps (N : Node W) (boot : GasTable → H) (o : Start) (d : Driver W H) : (startArwen N boot o d).2.gas = d.gas ∧
    (startArwen N boot o d).2.deploys = d.deploys ∧ (startArwen N boot o d).2.calls = d.calls := by
  cases o <;> exact ⟨rfl, rfl, rfl⟩

theorem start_ready (N : Node W) (boot : GasTable → H) (o : Start) (d : Driver W H) (hd : InStep d) : InStep (startArwen N boot o d).2 := by
  cases o
  case early => exact hd
  case ok => exact ⟨rfl, fun a h e => by cases e; rfl⟩
  case noLogs => exact ⟨rfl, fun a h e => by cases e; rfl⟩
  case noProcess => exact ⟨hd.1, fun a h e => by cases e⟩
  case noArguments => exact ⟨hd.1, fun a h e => by cases e⟩

theorem reads_close (N : Node W) (m : Msg) (op : Op) (r : Returned) (h : op.reads N m = (r, true)) : r = op.failed .arwenGone := by
  cases op with
  | gas g => exact (congrArg Prod.fst h).symm
  | version =>
    unfold Op.reads at h
    dsimp only at h
    split at h <;> cases h
  | create i =>
    unfold Op.reads at h
    dsimp only at h
    split at h <;> cases h
  | call i =>
    unfold Op.reads at h
    dsimp only at h
    split at h <;> cases h
  | wait ms => cases h
  | close => cases h

theorem goOn_shape (N : Node W) (vm : Machine H) (c : Option Nat) (op : Op) (d d' : Driver W H) (r : Returned) (hd : InStep d)
    (hm : d.proc ≠ .missing) (h : d.goOn N vm c op = (r, d')) (hr : r ≠ .panic) :
    d'.gas = d.gas ∧ d'.deploys = d.deploys ∧ d'.calls = d.calls ∧ InStep d' ∧
    ((∃ e, r = op.failed e ∧ d'.proc = .closed) ∨ ∃ h0 m t h1, d.proc = .running {} h0 ∧
      startLoopUntil N vm c op.request { world := d.world } h0 = (.ok m, t, h1) ∧ op.reads N m = (r, false) ∧
      d'.proc = .running {} h1 ∧ d'.world = t.world) := by
  unfold Driver.goOn at h
  have k1 := converse_keeps N vm c op.request d
  have k2 := converse_node N vm c op.request d
  have k3 := converse_missing N vm c op.request d hm
  have k4 := fun m => converse_ok N vm c op.request m d hd
  generalize converse N vm c op.request d = q at h k1 k2 k3 k4
  obtain ⟨q, u⟩ := q
  dsimp only at k1 k2 k3 k4
  have hc := close_eq u k3
  split at h
  · cases h; exact absurd rfl hr
  · next e u' _ heq =>
    cases heq
    rw [hc] at h
    cases h
    exact ⟨k1.1, k1.2.1, k1.2.2, ⟨k2, fun a h e => by cases e⟩, .inl ⟨_, rfl, rfl⟩⟩
  · next m u' heq =>
    cases heq
    obtain ⟨h0, t, h1, e1, e2, e3, e4⟩ := k4 m rfl
    split at h
    · next r' hrd =>
      cases h
      refine ⟨k1.1, k1.2.1, k1.2.2, ⟨k2, fun a h e => ?_⟩, .inr ⟨h0, m, t, h1, e1, e2, hrd, e3, e4⟩⟩
      rw [e3] at e
      cases e
      rfl
    · next r' hrd =>
      rw [hc] at h
      cases h
      exact ⟨k1.1, k1.2.1, k1.2.2, ⟨k2, fun a h e => by cases e⟩, .inl ⟨_, reads_close N m op _ hrd, rfl⟩⟩

theorem step_eq (N : Node W) (vm : Machine H) (boot : GasTable → H) (f : Faults) (op : Op) (d : Driver W H) (ho : op ≠ .close) :
    d.step N vm boot f op =
      match restartIfNecessary N boot f.start (op.prepare (d.afterIdle f.dies)) with
      | none => (.panic, op.prepare (d.afterIdle f.dies))
      | some (false, d) => (op.failed .arwenGone, d)
      | some (true, d) => d.goOn N vm f.crash op := by
  cases op
  case close => exact absurd rfl ho
  all_goals rfl

theorem idle_ready (d : Driver W H) (b : Bool) (hd : InStep d) : InStep (d.afterIdle b) := by
  refine ⟨by rw [(idle_keeps d b).2.1]; exact hd.1, fun a h e => ?_⟩
  rcases idle_proc d b with h' | h'
  · rw [h'.1] at e
    exact hd.2 a h e
  · rw [h'] at e
    cases e

theorem prepare_ready (op : Op) (d : Driver W H) (hd : InStep d) : InStep (op.prepare d) := by
  obtain ⟨e1, e2, _⟩ := prepare_proc op d
  exact ⟨by rw [e2]; exact hd.1, fun a h e => hd.2 a h (by rw [← e1]; exact e)⟩

theorem step_shape (N : Node W) (vm : Machine H) (boot : GasTable → H) (f : Faults) (op : Op) (d d' : Driver W H) (r : Returned)
    (hd : InStep d) (h : d.step N vm boot f op = (r, d')) (hr : r ≠ .panic) :
    d'.gas = (op.prepare d).gas ∧ d'.deploys = (op.prepare d).deploys ∧ d'.calls = (op.prepare d).calls ∧ InStep d' ∧
      Shape N vm boot f op d r d' := by
  obtain ⟨i1, i2, i3, i4, i5⟩ := idle_keeps d f.dies
  obtain ⟨g1, g2, g3⟩ := prepare_gas op _ _ i1 i4 i5
  by_cases ho : op = .close
  · subst ho
    have h : (match closeArwen (d.afterIdle f.dies) with | none => (Returned.panic, d.afterIdle f.dies) | some d => (.nothing, d)) = (r, d') := h
    by_cases hm : (d.afterIdle f.dies).proc = .missing
    · unfold closeArwen at h
      rw [hm] at h
      cases h
      exact absurd rfl hr
    · rw [close_eq _ hm] at h
      cases h
      exact ⟨i1, i4, i5, ⟨by rw [← hd.1]; exact i2, fun a h e => by cases e⟩, .closed .arwenGone rfl rfl⟩
  · rw [step_eq _ _ _ _ _ _ ho] at h
    have hu := prepare_ready op _ (idle_ready d f.dies hd)
    obtain ⟨p1, p2, p3⟩ := prepare_proc op (d.afterIdle f.dies)
    obtain ⟨q1, q2, q3⟩ := prepare_proc op d
    generalize op.prepare (d.afterIdle f.dies) = u at h g1 g2 g3 hu p1 p2 p3
    have hidle := idle_proc d f.dies
    rw [← p1] at hidle
    unfold restartIfNecessary at h
    split at h
    · cases h; exact absurd rfl hr
    · next d1 heq =>
      split at heq
      · cases heq
      · next hc =>
        have hcd : d.proc = .closed := by
          rcases hidle with h' | h'
          · rw [← h'.1]; exact hc
          · rw [hc] at h'; cases h'
        cases h
        have k := start_keeps N boot f.start u
        have k' := start_ready N boot f.start u hu
        have heq : startArwen N boot f.start u = (false, d') := Option.some.inj heq
        rw [heq] at k k'
        refine ⟨k.1.trans g1, k.2.1.trans g2, k.2.2.trans g3, k', ?_⟩
        cases hs : f.start <;> rw [hs] at heq <;> cases heq
        · exact .closed _ rfl hc
        · exact .start _ rfl hcd (.inl ⟨hs, rfl⟩)
        · exact .start _ rfl hcd (.inr (.inl ⟨hs, rfl⟩))
        · exact .start _ rfl hcd (.inr (.inr ⟨hs, rfl⟩))
      · cases heq
    · next d1 heq =>
      split at heq
      · cases heq
      · next hc =>
        have hcd : d.proc = .closed := by
          rcases hidle with h' | h'
          · rw [← h'.1]; exact hc
          · rw [hc] at h'; cases h'
        have heq : startArwen N boot f.start u = (true, d1) := Option.some.inj heq
        have hs : f.start = .ok := by cases hs : f.start <;> rw [hs] at heq <;> first | rfl | cases heq
        rw [hs] at heq
        cases heq
        obtain ⟨k1, k2, k3, k4, k5⟩ := goOn_shape N vm f.crash op _ d' r (start_ready N boot .ok u hu)
          (fun h => by cases h) h hr
        refine ⟨k1.trans g1, k2.trans g2, k3.trans g3, k4, ?_⟩
        rcases k5 with ⟨e, e1, e2⟩ | ⟨h0, m, t, h1, e1, e2, e3, e4, e5⟩
        · exact .closed e e1 e2
        · cases e1
          have hsv := Serves.fresh (N := N) (boot := boot) (d := op.prepare d) (q1.trans hcd)
          rw [q3, ← g1, ← i3, ← p3] at hsv
          exact .answered _ _ m t h1 hsv (.inr hcd) e2 e3 e4 e5
      · next hmis hcl =>
        cases heq
        obtain ⟨k1, k2, k3, k4, k5⟩ := goOn_shape N vm f.crash op _ d' r hu hmis h hr
        refine ⟨k1.trans g1, k2.trans g2, k3.trans g3, k4, ?_⟩
        rcases k5 with ⟨e, e1, e2⟩ | ⟨h0, m, t, h1, e1, e2, e3, e4, e5⟩
        · exact .closed e e1 e2
        · rcases hidle with h' | h'
          · have hpr : d.proc = .running {} h0 := by rw [← h'.1]; exact e1
            have hsv := Serves.alive (N := N) (boot := boot) (d := op.prepare d) {} h0 (q1.trans hpr)
            rw [q3, ← i3, ← p3] at hsv
            refine .answered _ _ m t h1 hsv (.inl ?_) e2 e3 e4 e5
            rcases h'.2 with hb | hb
            · exact hb
            · exact absurd hpr (hb _ _)
          · rw [h'] at e1
            cases e1

/-! ### The properties -/

/-- every request of an operation leaves the schedule of the virtual machine alone; that for a new schedule is never taken -/
theorem reply_ends (N : Node W) (vm : Machine H) (boot : GasTable → H) (schedule : H → GasTable) (K : KeepsSchedule schedule vm boot)
    (op : Op) (h : H) (n : UInt32) (p : IProg (Msg × H))
    (hp : arwenReply N.ord vm ({ op.request with nonce := n } : Msg).arrived h = some p) :
    Ends (fun r => schedule r.2 = schedule h) p := by
  cases op with
  | version => cases hp; rfl
  | gas g => cases hp
  | create i =>
    cases hp
    exact ends_map _ _ _ (K.create i h)
  | call i =>
    cases hp
    exact ends_map _ _ _ (K.call i h)
  | wait ms => cases hp; rfl
  | close => cases hp; rfl

/-- a request for a new schedule gets no answer -/
theorem gas_unanswered (N : Node W) (vm : Machine H) (c : Option Nat) (g : GasTable) (s : Sys W) (h : H) (m : Msg) :
    (startLoopUntil N vm c (Op.gas g).request s h).1 ≠ .ok m := by
  intro e
  unfold startLoopUntil at e
  simp only [Messenger.send] at e
  split at e
  · cases e
  · cases e

theorem prepare_schedule (op : Op) (d : Driver W H) (g : GasTable) (h : d.gas = g) : (op.prepare d).gas = lastSchedule g [op] := by
  subst h
  cases op <;> rfl

/-- the virtual machine that is served uses the schedule of the driver -/
theorem serves_schedule (N : Node W) (boot : GasTable → H) (schedule : H → GasTable) (vm : Machine H) (K : KeepsSchedule schedule vm boot)
    (d : Driver W H) (hd : ∀ a h, d.proc = .running a h → schedule h = d.gas) (h : H) (w : W) (hs : Serves N boot d h w) :
    schedule h = d.gas := by
  cases hs with
  | alive a h e => exact hd a _ e
  | fresh e => exact K.boot _

theorem step_schedule (N : Node W) (vm : Machine H) (boot : GasTable → H) (schedule : H → GasTable) (K : KeepsSchedule schedule vm boot)
    (f : Faults) (op : Op) (d d' : Driver W H) (r : Returned) (hd : InStep d) (hs : ∀ a h, d.proc = .running a h → schedule h = d.gas)
    (h : d.step N vm boot f op = (r, d')) (hr : r ≠ .panic) : ∀ a h, d'.proc = .running a h → schedule h = d'.gas := by
  obtain ⟨e1, _, _, _, sh⟩ := step_shape N vm boot f op d d' r hd h hr
  intro a x hx
  cases sh with
  | closed e _ hc => rw [hc] at hx; cases hx
  | start e _ _ hc =>
    rcases hc with ⟨_, hc⟩ | ⟨_, hc⟩ | ⟨_, hc⟩
    · rw [hc] at hx; cases hx
    · rw [hc] at hx; cases hx
    · rw [hc] at hx
      cases hx
      exact K.boot _
  | answered h0 w m t h1 sv _ hl _ hp _ =>
    rw [hp] at hx
    cases hx
    by_cases hg : ∃ g, op = .gas g
    · obtain ⟨g, rfl⟩ := hg
      exact absurd (congrArg Prod.fst hl) (gas_unanswered N vm f.crash g _ h0 m)
    · have hgas : (op.prepare d).gas = d.gas := by
        cases op
        case gas => exact absurd ⟨_, rfl⟩ hg
        all_goals rfl
      have h0s : schedule h0 = (op.prepare d).gas := serves_schedule N boot schedule vm K _ (fun a h e => by
        rw [(prepare_proc op d).1] at e
        rw [hgas]
        exact hs a h e) h0 w sv
      have := (loop_state N vm f.crash op.request ({ world := w } : Sys W) h0 (fun x => schedule x = schedule h0) rfl
        (fun n p hp => reply_ends N vm boot schedule K op h0 n p hp)).1
      rw [hl] at this
      exact this.trans (h0s.trans e1.symm)

/-- facts about histories by induction over their operations -/
theorem history_inv (N : Node W) (vm : Machine H) (boot : GasTable → H) (P : List Op → Driver W H → Prop)
    (hstep : ∀ ops d f op r d', P ops d → d.step N vm boot f op = (r, d') → r ≠ .panic → P (ops ++ [op]) d')
    (hist : List (Faults × Op)) (ops : List Op) (d d' : Driver W H) (rs : List Returned) (h0 : P ops d)
    (h : d.history N vm boot hist = (rs, d')) (hr : ∀ r ∈ rs, r ≠ .panic) : P (ops ++ hist.map Prod.snd) d' := by
  induction hist generalizing ops d rs with
  | nil =>
    cases h
    simpa using h0
  | cons x rest ih =>
    obtain ⟨f, op⟩ := x
    unfold Driver.history at h
    split at h
    · cases h
      exact absurd rfl (hr _ (List.mem_cons_self ..))
    · next r d1 hne hst =>
      have := hstep ops d f op r d1 h0 hst (fun e => hne e)
      cases h
      have := ih (ops ++ [op]) d1 _ this rfl (fun r' hr' => hr r' (List.mem_cons_of_mem _ hr'))
      rwa [List.append_assoc] at this

theorem schedule_append (g : GasTable) (ops : List Op) (op : Op) :
    lastSchedule g (ops ++ [op]) = lastSchedule (lastSchedule g ops) [op] := by
  unfold lastSchedule
  rw [List.foldl_append]

/-- the state of a driver: ready, with the last schedule -/
theorem reaches_state (N : Node W) (vm : Machine H) (boot : GasTable → H) (g : GasTable) (w : W) (hist : List (Faults × Op))
    (d : Driver W H) (h : Reaches N vm boot g w hist d) : InStep d ∧ d.gas = lastSchedule g (hist.map Prod.snd) := by
  obtain ⟨rs, h, hr⟩ := h
  exact history_inv N vm boot (fun ops d => InStep d ∧ d.gas = lastSchedule g ops)
    (fun ops d f op r d' hp hs hn => by
      obtain ⟨e1, _, _, e4, _⟩ := step_shape N vm boot f op d d' r hp.1 hs hn
      exact ⟨e4, by rw [e1, schedule_append]; exact prepare_schedule op d _ hp.2⟩)
    hist [] _ d rs ⟨new_ready N boot g w, rfl⟩ h hr

/-- **C67 (schedule).** Whatever has happened before — crashes at any point, failed starts, restarts — the virtual machine that
takes the next request uses the schedule that was last given to `GasScheduleChange`, although the request for that change kills the
process (`c38_gas_neg`). -/
theorem c67_schedule (N : Node W) (vm : Machine H) (boot : GasTable → H) (schedule : H → GasTable) (K : KeepsSchedule schedule vm boot)
    (g : GasTable) (w : W) (hist : List (Faults × Op)) (d : Driver W H) (h : Reaches N vm boot g w hist d)
    (x : H) (w' : W) (hs : Serves N boot d x w') : schedule x = lastSchedule g (hist.map Prod.snd) := by
  have h2 := (reaches_state N vm boot g w hist d h).2
  obtain ⟨rs, h, hr⟩ := h
  have h3 := history_inv N vm boot (fun _ d => InStep d ∧ ∀ a h, d.proc = .running a h → schedule h = d.gas)
    (fun ops d f op r d' hp hs hn =>
      ⟨(step_shape N vm boot f op d d' r hp.1 hs hn).2.2.2.1, step_schedule N vm boot schedule K f op d d' r hp.1 hp.2 hs hn⟩)
    hist [] _ d rs ⟨new_ready N boot g w, fun a h e => by cases e; exact K.boot _⟩ h hr
  rw [← h2]
  exact serves_schedule N boot schedule vm K d h3.2 x w' hs

/-- what is served does not depend on the counters -/
theorem serves_prepare (N : Node W) (boot : GasTable → H) (op : Op) (d : Driver W H) (h : H) (w : W)
    (ho : ∀ g, op ≠ .gas g) (hs : Serves N boot (op.prepare d) h w) : Serves N boot d h w := by
  have hgas : (op.prepare d).gas = d.gas := by
    cases op
    case gas g => exact absurd rfl (ho g)
    all_goals rfl
  obtain ⟨e1, _, e3⟩ := prepare_proc op d
  cases hs with
  | alive a h e =>
    rw [e3]
    exact .alive a _ (e1.symm.trans e)
  | fresh e =>
    rw [e3, hgas]
    exact .fresh (e1.symm.trans e)

/-- **C67 (answers).** After any history, with any fault during the operation: an output, or an error of the host, that the driver
returns for a call or a deployment is that of one complete run, inside the node, of exactly this request on the virtual machine and
the state of the node that it should meet; the state of the node and the virtual machine afterwards are those after this run. -/
theorem c67_answer (N : Node W) (hp : PlainErrors N) (hf : Fair N.ord) (vm : Machine H) (boot : GasTable → H) (g : GasTable) (w : W)
    (hist : List (Faults × Op)) (d d' : Driver W H) (h : Reaches N vm boot g w hist d) (f : Faults) (op : Op) (r : Driven)
    (hop : ∀ x, ∃ p, runOf vm op x = some p ∧ Sendable N p)
    (hs : d.step N vm boot f op = (.ran r, d')) (hr : ∀ e, r ≠ .critical e) :
    ∃ x w' p, Serves N boot d x w' ∧ runOf vm op x = some p ∧ Agrees r (runDirect N.hook p w').1.1 ∧
      d'.proc = .running {} (runDirect N.hook p w').1.2 ∧ d'.world = (runDirect N.hook p w').2 := by
  have hready := (reaches_state N vm boot g w hist d h).1
  obtain ⟨_, _, _, _, sh⟩ := step_shape N vm boot f op d d' _ hready hs (by intro e; cases e)
  have hcrit : ∀ e, Returned.ran r ≠ op.failed e := by
    intro e he
    cases op <;> first | (cases he; done) | (cases he; exact hr e rfl)
  cases sh with
  | closed e he _ => exact absurd he (hcrit e)
  | start e he _ _ => exact absurd he (hcrit e)
  | answered h0 w0 m t h1 sv _ hl hrd hpr hw =>
    obtain ⟨p, hrun, hsend⟩ := hop h0
    have hreads : driverReads N (.ok m) = r := by
      cases op with
      | version =>
        unfold Op.reads at hrd
        dsimp only at hrd
        split at hrd <;> cases hrd
      | gas g => cases hrd
      | wait ms => cases hrd
      | close => cases hrd
      | create i =>
        unfold Op.reads at hrd
        dsimp only at hrd
        split at hrd
        · cases hrd
        · cases hrd; rfl
      | call i =>
        unfold Op.reads at hrd
        dsimp only at hrd
        split at hrd
        · cases hrd
        · cases hrd; rfl
    have key : (∃ n, m = { contractResponse N.ord (runDirect N.hook p w0).1.1 with nonce := n }) ∧
        h1 = (runDirect N.hook p w0).1.2 ∧ t.world = (runDirect N.hook p w0).2 := by
      cases op with
      | version => cases hrun
      | gas g => cases hrun
      | wait ms => cases hrun
      | close => cases hrun
      | create i =>
        cases hrun
        have := loop_direct N vm hp f.crash (Op.create i).request { world := w0 } h0 rfl rfl (vm.create i h0) (fun _ => rfl) hsend.asks m
          (congrArg Prod.fst hl)
        rw [hl] at this
        exact this
      | call i =>
        cases hrun
        have := loop_direct N vm hp f.crash (Op.call i).request { world := w0 } h0 rfl rfl (vm.call i h0) (fun _ => rfl) hsend.asks m
          (congrArg Prod.fst hl)
        rw [hl] at this
        exact this
    obtain ⟨⟨n, hm⟩, hh, hw0⟩ := key
    have hsv : Serves N boot d h0 w0 := serves_prepare N boot op d h0 w0 (fun g e => by subst e; cases hrun) sv
    refine ⟨h0, w0, p, hsv, hrun, ?_, by rw [hpr, hh], by rw [hw, hw0]⟩
    rw [← hreads, hm]
    exact driverReads_agrees N hf _ n (hsend.keys w0) (hsend.errors w0)

/-- a request without faults is answered, if the process runs or is closed -/
theorem step_served (N : Node W) (hp : PlainErrors N) (hf : Fair N.ord) (vm : Machine H) (boot : GasTable → H) (d : Driver W H)
    (hd : InStep d) (x : H) (w' : W) (hs : Serves N boot d x w') (op : Op) (p : IProg ((Option RawOutput × Option Bytes) × H))
    (hrun : runOf vm op x = some p) (hsend : Sendable N p)
    (ht : (waiting N (questions N.hook p w' + 1) : Int) ≤ N.maxLoopTime) :
    ∃ r d', d.step N vm boot {} op = (.ran r, d') ∧ Agrees r (runDirect N.hook p w').1.1 ∧
      d'.proc = .running {} (runDirect N.hook p w').1.2 ∧ d'.world = (runDirect N.hook p w').2 := by
  have hclose : op ≠ .close := by rintro rfl; cases hrun
  have hgas : (op.prepare d).gas = d.gas := by
    cases op
    case gas => cases hrun
    all_goals rfl
  obtain ⟨e1, e2, e3⟩ := prepare_proc op d
  have hu : ∃ u : Driver W H, restartIfNecessary N boot .ok (op.prepare d) = some (true, u) ∧ u.proc = .running {} x ∧ u.world = w' ∧
      u.node = {} := by
    unfold restartIfNecessary
    rw [e1]
    cases hs with
    | alive a h e =>
      rw [e]
      refine ⟨_, rfl, ?_, e3, e2.trans hd.1⟩
      rw [e1, e, hd.2 _ _ e]
    | fresh e =>
      rw [e]
      refine ⟨_, rfl, ?_, ?_, rfl⟩
      · show Proc.running {} (boot (op.prepare d).gas) = _
        rw [hgas]
      · show (N.hook .clearCompiledCodes () (op.prepare d).world).2 = _
        rw [e3]
  obtain ⟨u, u1, u2, u3, u4⟩ := hu
  have hloop : ∃ (n : UInt32) (t : Sys W), startLoop N vm op.request { world := w' } x =
      (.ok { contractResponse N.ord (runDirect N.hook p w').1.1 with nonce := n }, t, (runDirect N.hook p w').1.2) ∧
      t.world = (runDirect N.hook p w').2 ∧ t.node = {} ∧ t.arwen = {} := by
    cases op with
    | version => cases hrun
    | gas g => cases hrun
    | wait ms => cases hrun
    | close => cases hrun
    | create i =>
      cases hrun
      exact startLoop_run N vm hp _ { world := w' } x rfl rfl (vm.create i x) (fun _ => rfl) hsend.asks ht
    | call i =>
      cases hrun
      exact startLoop_run N vm hp _ { world := w' } x rfl rfl (vm.call i x) (fun _ => rfl) hsend.asks ht
  obtain ⟨n, t, l1, l2, l3, l4⟩ := hloop
  have hagree := driverReads_agrees N hf (runDirect N.hook p w').1.1 n (hsend.keys w') (hsend.errors w')
  have hnp : driverReads N (.ok { contractResponse N.ord (runDirect N.hook p w').1.1 with nonce := n }) ≠ .critical .nodePanic := by
    intro h
    unfold driverReads at h
    dsimp only [contractResponse] at h
    split at h <;> cases h
  have hreads : op.reads N { contractResponse N.ord (runDirect N.hook p w').1.1 with nonce := n } =
      (.ran (driverReads N (.ok { contractResponse N.ord (runDirect N.hook p w').1.1 with nonce := n })), false) := by
    cases op with
    | version => cases hrun
    | gas g => cases hrun
    | wait ms => cases hrun
    | close => cases hrun
    | create i =>
      unfold Op.reads
      dsimp only
      split
      · next h => exact absurd h hnp
      · rfl
    | call i =>
      unfold Op.reads
      dsimp only
      split
      · next h => exact absurd h hnp
      · rfl
  have hconv : converse N vm none op.request u = (.ok { contractResponse N.ord (runDirect N.hook p w').1.1 with nonce := n },
      { u with node := {}, world := (runDirect N.hook p w').2, proc := .running {} (runDirect N.hook p w').1.2 }) := by
    unfold converse
    rw [u2]
    dsimp only
    rw [u3, u4, loop_none]
    show (_, _) = _
    rw [show ({ node := {}, arwen := {}, world := w' } : Sys W) = { world := w' } from rfl, l1]
    dsimp only
    rw [l2, l3, l4]
  refine ⟨_, { u with node := {}, world := (runDirect N.hook p w').2, proc := .running {} (runDirect N.hook p w').1.2 }, ?_,
    hagree, rfl, rfl⟩
  · rw [step_eq _ _ _ _ _ _ hclose]
    show (match restartIfNecessary N boot .ok (op.prepare d) with
      | none => (Returned.panic, op.prepare d)
      | some (false, d) => (op.failed .arwenGone, d)
      | some (true, d) => d.goOn N vm none op) = _
    rw [u1]
    dsimp only
    unfold Driver.goOn
    rw [hconv]
    dsimp only
    rw [hreads]

/-- **C67 (service).** After any history, a call or a deployment that meets no fault and that the node has time for is answered, if
the process runs or has been closed. -/
theorem c67_service (N : Node W) (hp : PlainErrors N) (hf : Fair N.ord) (vm : Machine H) (boot : GasTable → H) (g : GasTable) (w : W)
    (hist : List (Faults × Op)) (d : Driver W H) (h : Reaches N vm boot g w hist d) (x : H) (w' : W) (hs : Serves N boot d x w')
    (op : Op) (p : IProg ((Option RawOutput × Option Bytes) × H)) (hrun : runOf vm op x = some p) (hsend : Sendable N p)
    (ht : (waiting N (questions N.hook p w' + 1) : Int) ≤ N.maxLoopTime) :
    ∃ r d', d.step N vm boot {} op = (.ran r, d') ∧ Agrees r (runDirect N.hook p w').1.1 ∧
      d'.proc = .running {} (runDirect N.hook p w').1.2 ∧ d'.world = (runDirect N.hook p w').2 :=
  step_served N hp hf vm boot d (reaches_state N vm boot g w hist d h).1 x w' hs op p hrun hsend ht

/-- **C67 (recovery).** After any history, when an operation ends with a critical error — the process died before it or at any point
of it, the dialogue failed, the time was over, or a new process could not be started for want of pipes, of a path or of logs — the
next request meets a fresh virtual machine with the schedule of the driver: nothing of the old one is left. -/
theorem c67_recovery (N : Node W) (vm : Machine H) (boot : GasTable → H) (g : GasTable) (w : W) (hist : List (Faults × Op))
    (d d' : Driver W H) (h : Reaches N vm boot g w hist d) (f : Faults) (op : Op) (e : LoopErr)
    (hop : (∃ i, op = .call i) ∨ ∃ i, op = .create i) (hf : f.start ≠ .noProcess ∧ f.start ≠ .noArguments)
    (hs : d.step N vm boot f op = (.ran (.critical e), d')) :
    InStep d' ∧ d'.gas = d.gas ∧ (∃ w', Serves N boot d' (boot d'.gas) w') ∧ ∀ x w', Serves N boot d' x w' → x = boot d'.gas := by
  have hready := (reaches_state N vm boot g w hist d h).1
  obtain ⟨e1, _, _, e4, sh⟩ := step_shape N vm boot f op d d' _ hready hs (by intro e; cases e)
  have hgas : (op.prepare d).gas = d.gas := by rcases hop with ⟨i, rfl⟩ | ⟨i, rfl⟩ <;> rfl
  refine ⟨e4, e1.trans hgas, ?_⟩
  have hproc : d'.proc = .closed ∨ d'.proc = .running {} (boot d'.gas) := by
    cases sh with
    | closed e he hc => exact .inl hc
    | start e he _ hc =>
      rcases hc with ⟨hc, _⟩ | ⟨hc, _⟩ | ⟨_, hc⟩
      · exact absurd hc hf.1
      · exact absurd hc hf.2
      · exact .inr hc
    | answered h0 w0 m t h1 sv _ hl hrd hpr hw =>
      exfalso
      have hcrit : driverReads N (.ok m) ≠ .critical e ∨ e = .nodePanic := by
        unfold driverReads
        dsimp only
        split
        · split <;> exact .inl (by intro h; cases h)
        · cases e <;> first | exact .inr rfl | exact .inl (by intro h; cases h)
      rcases hop with ⟨i, rfl⟩ | ⟨i, rfl⟩ <;>
      · unfold Op.reads at hrd
        dsimp only at hrd
        split at hrd
        · cases hrd
        · next hne =>
          have hrd' := Returned.ran.inj (congrArg Prod.fst hrd)
          rcases hcrit with hc | hc
          · exact hc hrd'
          · subst hc
            exact hne hrd'
  rcases hproc with hc | hc
  · refine ⟨⟨_, .fresh hc⟩, fun x w' hx => ?_⟩
    cases hx with
    | alive a h e => rw [hc] at e; cases e
    | fresh _ => rfl
  · refine ⟨⟨_, .alive _ _ hc⟩, fun x w' hx => ?_⟩
    cases hx with
    | alive a h e => rw [hc] at e; cases e; rfl
    | fresh _ => rfl

/-- **C67 (one error).** So after such an error the next call or deployment that meets no fault is answered. -/
theorem c67_next (N : Node W) (hp : PlainErrors N) (ho : Fair N.ord) (vm : Machine H) (boot : GasTable → H) (g : GasTable) (w : W)
    (hist : List (Faults × Op)) (d d' : Driver W H) (h : Reaches N vm boot g w hist d) (f : Faults) (op : Op) (e : LoopErr)
    (hop : (∃ i, op = .call i) ∨ ∃ i, op = .create i) (hf : f.start ≠ .noProcess ∧ f.start ≠ .noArguments)
    (hs : d.step N vm boot f op = (.ran (.critical e), d')) (next : Op) (p : IProg ((Option RawOutput × Option Bytes) × H))
    (hrun : runOf vm next (boot d.gas) = some p) (hsend : Sendable N p)
    (ht : ∀ w', (waiting N (questions N.hook p w' + 1) : Int) ≤ N.maxLoopTime) :
    ∃ w' r d'', d'.step N vm boot {} next = (.ran r, d'') ∧ Agrees r (runDirect N.hook p w').1.1 := by
  obtain ⟨e1, e2, ⟨w', e3⟩, _⟩ := c67_recovery N vm boot g w hist d d' h f op e hop hf hs
  rw [e2] at e3
  obtain ⟨r, d'', e5, e6, _⟩ := step_served N hp ho vm boot d' e1 _ w' e3 next p hrun hsend (ht w')
  exact ⟨w', r, d'', e5, e6⟩

theorem calls_append (ops : List Op) (op : Op) :
    UInt64.ofNat (callsIn (ops ++ [op])) = UInt64.ofNat (callsIn ops) + UInt64.ofNat (callsIn [op]) := by
  unfold callsIn
  rw [List.countP_append, UInt64.ofNat_add]

theorem deploys_append (ops : List Op) (op : Op) :
    UInt64.ofNat (deploysIn (ops ++ [op])) = UInt64.ofNat (deploysIn ops) + UInt64.ofNat (deploysIn [op]) := by
  unfold deploysIn
  rw [List.countP_append, UInt64.ofNat_add]

/-- **C67 (counters).** The counters count the calls and the deployments, whether they succeed or not. -/
theorem c67_counters (N : Node W) (vm : Machine H) (boot : GasTable → H) (g : GasTable) (w : W) (hist : List (Faults × Op))
    (d : Driver W H) (h : Reaches N vm boot g w hist d) : d.calls = UInt64.ofNat (callsIn (hist.map Prod.snd)) ∧
      d.deploys = UInt64.ofNat (deploysIn (hist.map Prod.snd)) := by
  obtain ⟨rs, h, hr⟩ := h
  refine (history_inv N vm boot (fun ops d => InStep d ∧ d.calls = UInt64.ofNat (callsIn ops) ∧ d.deploys = UInt64.ofNat (deploysIn ops))
    (fun ops d f op r d' hp hs hn => ?_) hist [] _ d rs ⟨new_ready N boot g w, rfl, rfl⟩ h hr).2
  obtain ⟨_, e2, e3, e4, _⟩ := step_shape N vm boot f op d d' r hp.1 hs hn
  refine ⟨e4, ?_, ?_⟩
  · rw [e3, calls_append, ← hp.2.1]
    cases op <;> first | rfl | exact (UInt64.add_zero _).symm
  · rw [e2, deploys_append, ← hp.2.2]
    cases op <;> first | rfl | exact (UInt64.add_zero _).symm

/-! ### What goes wrong -/

/-- **A failed restart makes the node panic.** If the process is closed and the executable cannot be started, the request gets its
critical error, and the next operation, whatever it is, dereferences the missing process. -/
theorem c67_restart_neg (N : Node W) (vm : Machine H) (boot : GasTable → H) (g : GasTable) (w : W) (i : CallInput) (op : Op) :
    ((newDriver N boot g w).history N vm boot [({}, .close), ({ start := .noProcess }, .call i), ({}, op)]).1 =
      [.nothing, .ran (.critical .arwenGone), .panic] := by
  cases op <;> rfl

/-- **A process that died between two requests is not replaced in time.** The driver takes the zombie for a running process, so the
next call fails although a new process could be started; only the call after it is served by a new process. -/
theorem c67_zombie_neg (N : Node W) (vm : Machine H) (boot : GasTable → H) (g : GasTable) (w : W) (i : CallInput) :
    (newDriver N boot g w).step N vm boot { dies := true } (.call i) =
      (.ran (.critical .arwenGone), { newDriver N boot g w with proc := .closed, calls := 1 }) := rfl

/-! ### A concrete node -/

def toyCall : CallInput := { vm := {}, recipient := [1], function := [5] }

/-- `toyMachine` with a schedule -/
def scheduledMachine : Machine (GasTable × Nat) :=
  { create := fun _ h => .ret ((none, some [0x78]), h)
    call := fun i h =>
      .ask .currentNonce () fun n =>
      .ask .getStorageData ([1], i.function) fun x =>
      .ret ((some (rawOutput { richOutput with
        gasRemaining := match n with | .ok n => n | .error _ => 0
        returnData := [match x with | .ok b => b | .error e => e] }), none), (h.1, h.2 + 1))
    gasChange := fun g h => (g, h.2)
    version := [1] }

theorem scheduled_keeps : KeepsSchedule Prod.fst scheduledMachine (fun g => (g, 0)) :=
  ⟨fun _ => rfl, fun _ _ _ _ => rfl, fun _ _ => rfl⟩

theorem scheduled_sendable (h : GasTable × Nat) : Sendable toyNode (scheduledMachine.call toyCall h) := by
  have h1 : Supported .currentNonce := by unfold Supported Unrecognised; decide
  have h2 : Supported .getStorageData := by unfold Supported Unrecognised; decide
  refine ⟨⟨h1, fun _ => ⟨h2, fun _ => trivial⟩⟩, ?_, ?_⟩
  · intro w o ho
    have : o = rawOutput _ := (Option.some.inj ho).symm
    rw [this]
    exact rawOutput_keysAgree _
  · intro w text h
    cases h

/-- A schedule, a change of it, and a call during which the process dies at its second question. -/
def crashHistory : List (Faults × Op) := [({}, .gas [([1], [([2], 3)])]), ({ crash := some 1 }, .call toyCall)]

def crashState : List Returned × Driver Nat (GasTable × Nat) :=
  (newDriver toyNode (fun g => (g, 0)) [] 40).history toyNode scheduledMachine (fun g => (g, 0)) crashHistory

def Returned.isPanic : Returned → Bool
  | .panic => true
  | _ => false

def Returned.isCritical : Returned → Bool
  | .ran (.critical _) => true
  | _ => false

def isClosed {H : Type} : Proc H → Bool
  | .closed => true
  | _ => false

/-- The node does not panic; the call has a critical error, the process is closed, and the driver has the new schedule. The first of
the two questions had been answered. -/
theorem crashed_reaches : Reaches toyNode scheduledMachine (fun g => (g, 0)) [] 40 crashHistory crashState.2 ∧
    crashState.1.map Returned.isCritical = [false, true] ∧ crashState.2.gas = [([1], [([2], 3)])] ∧ crashState.2.world = 43 ∧
    crashState.2.proc = .closed := by
  have h : (crashState.1.all fun r => !Returned.isPanic r) = true := by decide +kernel
  have h2 : crashState = (crashState.1, crashState.2) := (Prod.eta crashState).symm
  refine ⟨⟨crashState.1, h2, fun r hr => ?_⟩, by decide +kernel, by decide +kernel, by decide +kernel, ?_⟩
  · have := List.all_eq_true.mp h r hr
    intro e
    subst e
    cases this
  · have : isClosed crashState.2.proc = true := by decide +kernel
    generalize crashState.2.proc = x at this ⊢
    cases x <;> first | rfl | cases this

/-- the conditions of `c67_schedule` are met -/
example : (crashState.2.gas, 0).1 = lastSchedule [] (crashHistory.map Prod.snd) :=
  c67_schedule toyNode scheduledMachine (fun g => (g, 0)) Prod.fst scheduled_keeps [] 40 _ _ crashed_reaches.1 _ _
    (.fresh crashed_reaches.2.2.2.2)

/-- the conditions of `c67_service` and `c67_answer` are met: the next call is answered by a new process, after the compiled codes
were dropped (the step of the node from 43 to 44) -/
example : ∃ r d', crashState.2.step toyNode scheduledMachine (fun g => (g, 0)) {} (.call toyCall) = (.ran r, d') ∧
    (∃ o, r = .output o ∧ o.gasRemaining = 44 ∧ o.returnData = [[5, 7]]) ∧ d'.proc = .running {} ([([1], [([2], 3)])], 1) ∧
    d'.world = 46 := by
  obtain ⟨h1, _, h2, h3, h4⟩ := crashed_reaches
  have hs := Serves.fresh (N := toyNode) (boot := fun g => ((g, 0) : GasTable × Nat)) h4
  rw [h2, h3] at hs
  obtain ⟨r, d', e1, e2, e3, e4⟩ := c67_service toyNode toyNode_plain reversed_fair scheduledMachine _ [] 40 _ _ h1
    ([([1], [([2], 3)])], 0) 44 hs (.call toyCall) _ rfl (scheduled_sendable _) (by decide +kernel)
  obtain ⟨o, e5, e6⟩ := e2
  exact ⟨r, d', e1, ⟨o, e5, e6.gasRemaining, e6.returnData⟩, e3, e4⟩

end Arwen.Props
