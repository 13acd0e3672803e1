import Verif.Host.Limit
import Verif.Spec.Depth
import Verif.Fixture
/-
C22: nested calls are bounded by the instance limit.
-/
namespace Arwen.Props
open Arwen Arwen.Spec
variable {χ A : Type} {E : Env χ A}

/-! ### Instances alive -/

/-- The alive instances are the running one and those on the stack of instances, and there are at most `maxInstances` of them. -/
structure Bounded (E : Env χ A) (s : St χ A) : Prop where
  warm : s.rt.warmInstance = none
  alive : ∀ j, j < s.nextInst → (s.insts j).cleaned = false → some j ∈ s.rt.instance_ :: s.rt.instanceStack
  few : ∀ l : List Nat, l.Nodup → (∀ j ∈ l, some j ∈ s.rt.instance_ :: s.rt.instanceStack) → l.length ≤ E.maxInstances

/-- the same instances, alive or released, current or on the stack -/
structure SameInst (s t : St χ A) : Prop where
  warm : t.rt.warmInstance = s.rt.warmInstance
  next : t.nextInst = s.nextInst
  cleaned : ∀ j, (t.insts j).cleaned = (s.insts j).cleaned
  inst : t.rt.instance_ = s.rt.instance_
  stack : t.rt.instanceStack = s.rt.instanceStack

theorem Bounded.same {s t : St χ A} (h : Bounded E s) (he : SameInst s t) : Bounded E t := by
  refine ⟨he.warm.trans h.warm, fun j hj hc => ?_, fun l hl hm => ?_⟩
  · rw [he.inst, he.stack]; rw [he.next] at hj; rw [he.cleaned] at hc; exact h.alive j hj hc
  · rw [he.inst, he.stack] at hm; exact h.few l hl hm

theorem SameInst.modInst {s : St χ A} (i : Nat) (f : Inst A → Inst A) (hf : (f (s.insts i)).cleaned = (s.insts i).cleaned) :
    SameInst s (s.modInst i f) := by
  refine ⟨rfl, rfl, fun j => ?_, rfl, rfl⟩
  by_cases hj : j = i
  · subst hj; simp [St.modInst, hf]
  · simp [St.modInst, hj]

theorem SameInst.ofOut {s t : St χ A} {o : OutCtx} (h : SameInst { s with out := o } t) : SameInst s t :=
  ⟨h.warm, h.next, h.cleaned, h.inst, h.stack⟩

theorem instStep_cleaned {back : Bool} {x y : Inst A} (h : InstStep back x y) : y.cleaned = x.cleaned := by cases h <;> rfl

/-- a list without repetitions all of whose elements are in `m` is not longer than `m` -/
theorem nodup_length_le {α : Type} [DecidableEq α] : ∀ (l m : List α), l.Nodup → (∀ x ∈ l, x ∈ m) → l.length ≤ m.length
  | [], _, _, _ => Nat.zero_le _
  | x :: l, m, hn, hs => by
    have hx := hs x (List.mem_cons_self ..)
    have h1 := nodup_length_le l (m.erase x) (List.nodup_cons.mp hn).2 (fun y hy => by
      have hne : y ≠ x := fun he => (List.nodup_cons.mp hn).1 (he ▸ hy)
      exact (List.mem_erase_of_ne hne).mpr (hs y (List.mem_cons_of_mem _ hy)))
    have h2 := List.length_erase_of_mem hx
    have h3 := List.length_pos_of_mem hx
    simp only [List.length_cons]
    omega

theorem bounded_cleanInstance {s : St χ A} (h : Bounded E s) : Bounded E s.cleanInstance := by
  unfold St.cleanInstance
  cases hi : s.rt.instance_ with
  | none => exact h
  | some i =>
    dsimp only
    split
    · exact h
    · refine ⟨h.warm, fun j hj hc => ?_, fun l hl hm => h.few l hl (fun j hj => ?_)⟩
      · by_cases hji : j = i
        · subst hji; simp [St.modInst, Inst.clean, Inst.cleaned] at hc
        · have := h.alive j hj (by simpa [St.modInst, hji] using hc)
          rw [hi] at this
          rcases List.mem_cons.mp this with h1 | h1
          · exact absurd (Option.some.inj h1) hji
          · exact List.mem_cons_of_mem _ h1
      · rcases List.mem_cons.mp (hm j hj) with h1 | h1
        · simp at h1
        · exact List.mem_cons_of_mem _ h1

theorem bounded_popInstance {s : St χ A} (h : Bounded E s) : Bounded E s.popInstance := by
  unfold St.popInstance
  cases hs : s.rt.instanceStack with
  | nil => exact h
  | cons prev rest =>
    dsimp only
    by_cases hp : prev = s.rt.instance_
    · rw [if_pos hp]
      refine ⟨h.warm, fun j hj hc => ?_, fun l hl hm => h.few l hl (fun j hj => ?_)⟩
      · have := h.alive j hj hc
        rw [hs, hp] at this
        simpa using this
      · have := hm j hj
        rw [hs, hp]
        simpa using this
    · rw [if_neg hp]
      have hc := bounded_cleanInstance h
      have hn := cleanInstance_none h.warm
      obtain ⟨h1, h2, h3⟩ := cleanInstance_rest s
      have e : ({ s with rt := { s.rt with instanceStack := rest } } : St χ A).cleanInstance
          = { s.cleanInstance with rt := { s.cleanInstance.rt with instanceStack := rest } } := by
        unfold St.cleanInstance
        cases hi : s.rt.instance_ with
        | none => simp only
        | some i => simp only [St.isWarm, hi, h.warm]; rfl
      rw [e]
      generalize s.cleanInstance = c at hc hn h1 h2 h3 ⊢
      refine ⟨hc.warm, fun j hj hcl => ?_, fun l hl hm => hc.few l hl (fun j hj => ?_)⟩
      · have := hc.alive j hj hcl
        rw [hn, h1, hs] at this
        simpa using this
      · have := hm j hj
        rw [hn, h1, hs]
        simpa using this

theorem bounded_rtPopSet {s : St χ A} (h : Bounded E s) : Bounded E s.rtPopSet := by
  unfold St.rtPopSet
  split
  · exact h
  · exact bounded_popInstance (h.same ⟨rfl, rfl, fun _ => rfl, rfl, rfl⟩)

theorem bounded_newInst (hw : E.useWarm = false) {s : St χ A} (hI : Bounded E s) (m : WasmModule A) (g : UInt64) (new : Bool)
    (hn : s.rt.instanceStack.length < E.maxInstances) (hf : Fresh E s) : Bounded E (newInstance m g new s) := by
  refine ⟨hI.warm, fun j hj hc => ?_, fun l hl hm => ?_⟩
  · by_cases hji : j = s.nextInst
    · subst hji; exact List.mem_cons_self ..
    · have hj : j < s.nextInst := by have : j < s.nextInst + 1 := hj; omega
      have h1 := hI.alive j hj (by simpa [newInstance, hji] using hc)
      rcases List.mem_cons.mp h1 with h1 | h1
      · rcases hf with h2 | h2 | h2
        · rw [h2] at h1; simp at h1
        · rw [← h1] at h2; exact List.mem_cons_of_mem _ h2
        · rw [hw] at h2; simp at h2
      · exact List.mem_cons_of_mem _ h1
  · have := nodup_length_le (l.map some) ((newInstance m g new s).rt.instance_ :: (newInstance m g new s).rt.instanceStack)
      (by rw [List.nodup_iff_pairwise_ne, List.pairwise_map]; exact hl.imp (fun h he => h (Option.some.inj he)))
      (fun x hx => by obtain ⟨j, hj, rfl⟩ := List.mem_map.mp hx; exact hm j hj)
    simp only [List.length_map, List.length_cons] at this
    have e : (newInstance m g new s).rt.instanceStack = s.rt.instanceStack := rfl
    rw [e] at this
    omega

/-- With the warm-instance feature off, all operations keep the bound. -/
theorem bounded_unary (hw : E.useWarm = false) : Unary E (Bounded E) where
  delete s t a i _ _ _ _ h := h.same ⟨rfl, rfl, fun _ => rfl, rfl, rfl⟩
  step := by
    intro s t h hI
    cases h with
    | a _ h =>
      refine hI.same ?_
      cases h with
      | inst i x _ hx => exact .modInst i _ (instStep_cleaned hx)
      | fail i rc m b _ _ => exact (SameInst.modInst (s := { s with out := (s.out.setReturnCode rc).setReturnMessage m }) i (fun x => { x with bp := b }) rfl).ofOut
      | rt c hc => cases hc <;> exact ⟨rfl, rfl, fun _ => rfl, rfl, rfl⟩
      | dest _ i r h _ => exact (halt_dest h).elim
      | same _ i r h _ => exact (halt_same h).elim
      | undo _ i r a ci h => exact (halt_dest h).elim
      | _ => exact ⟨rfl, rfl, fun _ => rfl, rfl, rfl⟩
    | instNone hf =>
      have hsub : ∀ j, some j ∈ s.rt.instance_ :: s.rt.instanceStack → some j ∈ none :: s.rt.instanceStack := by
        intro j hj
        rcases List.mem_cons.mp hj with h1 | h1
        · rcases hf with h2 | h2 | h2
          · rw [h2] at h1; simp at h1
          · rw [← h1] at h2; exact List.mem_cons_of_mem _ h2
          · rw [hw] at h2; simp at h2
        · exact List.mem_cons_of_mem _ h1
      refine ⟨hI.warm, fun j hj hc => hsub j (hI.alive j hj hc), fun l hl hm => hI.few l hl (fun j hj => ?_)⟩
      rcases List.mem_cons.mp (hm j hj) with h1 | h1
      · simp at h1
      · exact List.mem_cons_of_mem _ h1
    | newInst c new m g hn hf _ => exact bounded_newInst hw hI m g new hn hf
    | warmStart i g h1 => rw [hw] at h1; simp at h1
    | setWarm h1 => rw [hw] at h1; simp at h1
    | clean _ => exact bounded_cleanInstance hI
    | failed c new m g h1 h2 h3 => exact bounded_cleanInstance (bounded_newInst hw hI m g new h1 h2)
    | finalize =>
      obtain ⟨o, m, h⟩ := getVMOutput_only (E := E) s
      rw [h]; exact hI.same ⟨rfl, rfl, fun _ => rfl, rfl, rfl⟩
    | _ => exact hI.same ⟨rfl, rfl, fun _ => rfl, rfl, rfl⟩
  stepH := by
    intro s t h hI
    cases h with
    | inst i g h => exact hI.same (.modInst i _ rfl)
    | _ => exact hI.same ⟨rfl, rfl, fun _ => rfl, rfl, rfl⟩
  push := fun s hI => hI.same ⟨rfl, rfl, fun _ => rfl, rfl, rfl⟩
  bcPopSet := fun s hI => by
    obtain ⟨h1, h2, h3, h4, h5, h6, h7⟩ := bcPopSet_rest (E := E) s
    have h8 := bcPopSet_rt (E := E) s
    exact hI.same ⟨by rw [h8], h6, fun _ => by rw [h5], by rw [h8], by rw [h8]⟩
  bcPopDiscard := fun s hI => hI.same ⟨rfl, rfl, fun _ => rfl, rfl, rfl⟩
  onError := fun e s hI => by
    obtain ⟨o, m, h⟩ := outputOnError_only (E := E) s e
    rw [h]; exact hI.same ⟨rfl, rfl, fun _ => rfl, rfl, rfl⟩
  enterDest := fun i s hI => by
    have hm : ∀ x : Option Nat, x ∈ s.rt.instance_ :: s.rt.instance_ :: s.rt.instanceStack ↔ x ∈ s.rt.instance_ :: s.rt.instanceStack := by
      intro x; simp
    exact ⟨hI.warm, fun j hj hc => (hm _).mpr (hI.alive j hj hc), fun l hl h => hI.few l hl (fun j hj => (hm _).mp (h j hj))⟩
  enterSame := fun i s hI => by
    have hm : ∀ x : Option Nat, x ∈ s.rt.instance_ :: s.rt.instance_ :: s.rt.instanceStack ↔ x ∈ s.rt.instance_ :: s.rt.instanceStack := by
      intro x; simp
    exact ⟨hI.warm, fun j hj hc => (hm _).mpr (hI.alive j hj hc), fun l hl h => hI.few l hl (fun j hj => (hm _).mp (h j hj))⟩
  popDest := fun b s hI => by
    unfold popDest
    refine bounded_rtPopSet ?_
    cases b
    · exact hI.same ⟨rfl, rfl, fun _ => rfl, rfl, rfl⟩
    · exact hI.same ⟨rfl, rfl, fun _ => rfl, rfl, rfl⟩
  popSameFail := fun s hI => by
    unfold popSameFail
    have h := bounded_rtPopSet (hI.same (t := { s with big := s.big.popSet, met := s.met.popSet, out := s.out.popSet }) ⟨rfl, rfl, fun _ => rfl, rfl, rfl⟩)
    generalize St.rtPopSet _ = u at h ⊢
    obtain ⟨h1, h2, h3, h4, h5, h6, h7⟩ := bcPopSet_rest (E := E) u
    have h8 := bcPopSet_rt (E := E) u
    exact h.same ⟨by rw [h8], h6, fun _ => by rw [h5], by rw [h8], by rw [h8]⟩
  popSameOk := fun s hI => bounded_rtPopSet (hI.same ⟨rfl, rfl, fun _ => rfl, rfl, rfl⟩)
  restore := fun g s hI => by
    obtain ⟨r, ins, h, _, hi⟩ := restoreGas_only g s
    rw [h]
    refine hI.same ⟨rfl, rfl, fun j => ?_, rfl, rfl⟩
    rcases hi j with h | ⟨_, _, h⟩
    · show (ins j).cleaned = _; rw [h]
    · show (ins j).cleaned = _; rw [h]; rfl

/-! ### The properties -/

/-- no instance is alive and the host is at rest -/
structure Quiet (E : Env χ A) (s : St χ A) : Prop extends AtRest E s where
  none : aliveCount s = 0

theorem alive_iff (s : St χ A) : aliveCount s = 0 ↔ ∀ j, j < s.nextInst → (s.insts j).cleaned = true := by
  unfold aliveCount
  rw [List.length_eq_zero_iff, List.filter_eq_nil_iff]
  constructor
  · intro h j hj
    have := h j (List.mem_range.mpr hj)
    simpa using this
  · intro h j hj
    rw [h j (List.mem_range.mp hj)]
    simp

theorem Bounded.count {s : St χ A} (h : Bounded E s) : aliveCount s ≤ E.maxInstances := by
  unfold aliveCount
  refine h.few _ ?_ ?_
  · exact List.Nodup.sublist List.filter_sublist List.nodup_range
  · intro j hj
    rw [List.mem_filter] at hj
    exact h.alive j (List.mem_range.mp hj.1) (by simpa using hj.2)

theorem newAddress_insts (a : Addr) (s : St χ A) : (newAddress E a s).2.insts = s.insts ∧ (newAddress E a s).2.nextInst = s.nextInst := by
  have : (getNonce E a s).2.insts = s.insts ∧ (getNonce E a s).2.nextInst = s.nextInst := by
    unfold getNonce
    dsimp only
    repeat' split
    all_goals exact ⟨rfl, rfl⟩
  unfold newAddress
  dsimp only
  split <;> exact this

theorem hostInit_insts (s : St χ A) : ((hostInit E s).insts = s.insts ∧ (hostInit E s).nextInst = s.nextInst) ∨
    (hostInit E s).nextInst = 0 := by
  unfold hostInit
  dsimp only
  split
  · exact .inr rfl
  · exact .inl ⟨rfl, rfl⟩

theorem txStart_insts (tx : Tx) (s : St χ A) : ((txStart E tx s).insts = s.insts ∧ (txStart E tx s).nextInst = s.nextInst) ∨
    (txStart E tx s).nextInst = 0 := by
  cases tx with
  | call i => exact hostInit_insts s
  | create i =>
    unfold txStart
    dsimp only
    split
    · exact hostInit_insts s
    · obtain ⟨h1, h2⟩ := newAddress_insts (E := E) i.vm.caller (hostInit E s)
      rcases hostInit_insts (E := E) s with ⟨h3, h4⟩ | h4
      · exact .inl ⟨h1.trans h3, h2.trans h4⟩
      · exact .inr (h2.trans h4)

theorem Quiet.start {s : St χ A} (h : Quiet E s) (hw : E.useWarm = false) (tx : Tx) : Bounded E (txStart E tx s) := by
  obtain ⟨h1, h2, h3⟩ := txStart_rt (E := E) tx s
  have h4 := txStart_insts (E := E) tx s
  have hi : s.rt.instance_ = Option.none := h.inst.resolve_right (by simp [hw])
  refine ⟨h3.trans (h.warm.resolve_right (by simp [hw])), fun j hj hc => ?_, fun l hl hm => ?_⟩
  · rcases h4 with ⟨h4, h5⟩ | h4
    · rw [h4] at hc
      rw [h5] at hj
      rw [(alive_iff s).mp h.none j hj] at hc
      simp at hc
    · rw [h4] at hj
      exact absurd hj (Nat.not_lt_zero j)
  · cases l with
    | nil => exact Nat.zero_le _
    | cons j l =>
      have := hm j (List.mem_cons_self ..)
      rw [h1, h2, h.stack, hi] at this
      simp at this

/-- C22, instances: whatever the contracts do, a host in which every call of an API function first checks that at most
`maxInstances` instances are alive does the same as the host without the check: the bound holds at every API call of every
contract, at any depth. -/
theorem c22_alive_bounded_partial (E : Env χ A) (hw : E.useWarm = false) (n : Nat) (tx : Tx) (s : St χ A) (hq : Quiet E s)
    (hn : (runTx E n tx s).1 ≠ none) :
    runTx (E.withApi (guardApi E (fun t => decide (aliveCount t ≤ E.maxInstances)))) n tx s = runTx E n tx s :=
  runTx_guard (bounded_unary hw).invariant _ (fun _ h => decide_eq_true h.count) n tx s hq.toAtRest (hq.start hw tx) hn

/-- C22: after a transaction no instance is alive, whatever the outcome. -/
theorem c22_all_released_partial (E : Env χ A) (hw : E.useWarm = false) (n : Nat) (tx : Tx) (s : St χ A) (hq : Quiet E s)
    (hn : (runTx E n tx s).1 ≠ none) : Quiet E (runTx E n tx s).2 := by
  refine ⟨runTx_rest n tx s hq.toAtRest hn, ?_⟩
  have h0 := runTx_rest n tx s hq.toAtRest hn
  have h1 := runTx_any (E := E) n tx s
  generalize (runTx E n tx s).2 = v at h1 h0
  generalize (runTx E n tx s).1 = q at h1 hn
  have key : ∀ (r : Res VMOutput) (t : St χ A), txBody E (execN E n) tx (hostInit E s) = (r, t) → r ≠ .oof →
      AtRest E (hostClean t) → Bounded E (hostClean t) := by
    intro r t he hr _
    have hb := (bounded_unary hw).txBody (fun s d _ hI => hI.same ⟨rfl, rfl, fun _ => rfl, rfl, rfl⟩) n tx hq.toAtRest he hr (hq.start hw tx)
    unfold hostClean
    split
    · exact hb
    · exact bounded_cleanInstance hb
  have fin : ∀ t : St χ A, Bounded E t → AtRest E t → aliveCount t = 0 := by
    intro t hb hr
    rw [alive_iff]
    intro j hj
    cases hc : (t.insts j).cleaned with
    | true => rfl
    | false =>
      have := hb.alive j hj hc
      rw [hr.stack, hr.inst.resolve_right (by simp [hw])] at this
      simp at this
  cases h1 with
  | ok o t h5 => exact fin _ (key _ t h5 (by simp) h0) h0
  | panic t h5 => exact fin _ (key _ t h5 (by simp) h0) h0
  | oof t h5 => exact absurd rfl hn
  | reset o t h5 h6 =>
    have hb := (bounded_unary hw).txBody (fun s d _ hI => hI.same ⟨rfl, rfl, fun _ => rfl, rfl, rfl⟩) n tx hq.toAtRest h5 (by simp) (hq.start hw tx)
    have hb' : (hostClean t).rt.warmInstance = Option.none := by
      unfold hostClean
      split
      · exact hb.warm
      · exact (cleanInstance_rest t).2.1.trans hb.warm
    unfold St.isWarm at h6
    rw [hb'] at h6
    cases hi : (hostClean t).rt.instance_ with
    | some i => rw [hi] at h6; simp at h6
    | none =>
      have e : (hostClean t).resetWarm = hostClean t := by unfold St.resetWarm; simp only [hi]
      rw [e] at h0 ⊢
      refine fin _ ?_ h0
      unfold hostClean
      split
      · exact hb
      · exact bounded_cleanInstance hb

/-- C22, termination: recursion fuel for `maxInstances` levels (at least one) is never used up, and with more fuel the result is
the same. So every chain of nested calls is finite, although contracts may call each other without end. The instruction
sequences of contracts between two API calls are finite in the model. -/
theorem c22_terminates (E : Env χ A) (n : Nat) (h1 : 1 ≤ n) (hn : E.maxInstances ≤ n) (tx : Tx) (s : St χ A) (hr : AtRest E s) :
    (runTx E n tx s).1 ≠ none ∧ ∀ m, n ≤ m → runTx E m tx s = runTx E n tx s :=
  have h := runTx_enough h1 hn tx s hr
  ⟨h, fun _ hm => runTx_mono hm tx s hr h⟩

/-- C22 over histories of transactions: none runs out of fuel, and at the end no instance is alive. -/
theorem c22_history_partial (E : Env χ A) (hw : E.useWarm = false) (n : Nat) (h1 : 1 ≤ n) (hn : E.maxInstances ≤ n) :
    ∀ (txs : List Tx) (s : St χ A), Quiet E s → (∀ r ∈ (runAll E n txs s).1, r ≠ none) ∧ Quiet E (runAll E n txs s).2
  | [], s, hq => ⟨by simp [runAll], hq⟩
  | tx :: rest, s, hq => by
    have h := runTx_enough h1 hn tx s hq.toAtRest
    have hq' := c22_all_released_partial E hw n tx s hq h
    obtain ⟨h3, h4⟩ := c22_history_partial E hw n h1 hn rest _ hq'
    refine ⟨?_, h4⟩
    intro r hr
    simp only [runAll, List.mem_cons] at hr
    rcases hr with rfl | hr
    · exact h
    · exact h3 r hr

theorem finishDest_next (e : Option Err) (s t : St χ A) (r : Res VMOutput) (h : finishDest E e s = (r, t)) : t.nextInst = s.nextInst := by
  rw [finishDest_run] at h
  obtain ⟨o, m, h1⟩ := destOutput_only (E := E) e s
  have h2 : (popDest (decide ((destOutput E e s).1.returnCode = .ok)) (destOutput E e s).2).nextInst = s.nextInst := by
    unfold popDest
    rw [(rtPopSet_rest _).2]
    split <;> · show (destOutput E e s).2.nextInst = _; rw [h1]
  obtain ⟨r', ins, h3, _⟩ := restoreGas_only (destOutput E e s).1.gasRemaining
    (popDest (decide ((destOutput E e s).1.returnCode = .ok)) (destOutput E e s).2)
  simp only [M.bind_eq, M.bind, h3] at h
  rw [← h2]
  cases r' <;> · simp only [M.pure_eq, M.pure, Prod.mk.injEq] at h; rw [← h.2]

/-- C22, refusal: when the running instance is the last one allowed, a call of another contract on its own context returns an
error (or panics, if there is no instance to charge), and no instance is created. -/
theorem c22_refused_dest (E : Env χ A) (n : Nat) (i : CallInput) (s t : St χ A) (r : Res DestResult)
    (hl : E.maxInstances ≤ s.rt.instanceStack.length + 1) (hb : E.isBuiltin i.function = false)
    (h : (execN E (n + 1)).dest i s = (r, t)) :
    r ≠ .oof ∧ (∀ d, r = .ok d → d.err.isSome) ∧ t.nextInst = s.nextInst := by
  have hst : ∀ u j, Run (StepH E) (St.bcPush E s) u → E.maxInstances ≤ (enterDestState j u).rt.instanceStack.length := by
    intro u j hu; rw [enterDest_stack, hu.rtH.1]; exact hl
  have hrun : ∀ u j (r : Res (Option AsyncContextInfo × Option Err)) w, Run (StepH E) (St.bcPush E s) u →
      bodyDest E (execN E n) (enterDestInput j u) (enterDestState j u) = (r, w) → w.nextInst = s.nextInst ∧ r ≠ .oof := by
    intro u j r w hu he
    rw [(refused_bodyDest (ex' := Executor.idle) _ (hst u j hu)).1] at he
    obtain ⟨h1, h2⟩ := (sim_bodyDest frameEx_idle.keeps _ _ (fresh_enterDest _ _)).any he
    exact ⟨(h1.noInst (hst u j hu)).trans hu.rtH.2, h2⟩
  have herr : ∀ u j info w, Run (StepH E) (St.bcPush E s) u →
      bodyDest E (execN E n) (enterDestInput j u) (enterDestState j u) ≠ (.ok (info, none), w) :=
    fun u j info w hu => (refused_bodyDest (ex' := Executor.idle) _ (hst u j hu)).2 info w
  rcases execDest_any i s t r h with ⟨a, h1, h2⟩ | ⟨h1, h2⟩ | ⟨h1, u, j, h2, h3⟩
  · subst h1
    refine ⟨by simp, ?_⟩
    cases h2 with
    | failed _ _ _ h' => rw [hb] at h'; simp at h'
    | builtin _ _ _ h' => rw [hb] at h'; simp at h'
    | called u w v j info e r hu _ hbody hf =>
      have h3 := (hrun u j _ w hu hbody).1
      cases e with
      | none => exact absurd hbody (herr u j info w hu)
      | some e =>
        obtain ⟨r', hf'⟩ := finDest_state (some e) info w v _ hf
        have h4 := finishDest_next _ _ _ _ hf'
        have h5 : a.err = some e := by
          unfold finDest at hf
          rcases bind_ok hf with ⟨o, x, _, hf⟩ | ⟨_, hf⟩ | ⟨_, hf⟩
          · simp only [M.pure_eq, M.pure, Prod.mk.injEq, Res.ok.injEq] at hf
            rw [← hf.1]
          · simp at hf
          · simp at hf
        refine ⟨fun d hd => ?_, ?_⟩
        · simp only [Res.ok.injEq] at hd; rw [← hd, h5]; rfl
        · rw [h5]
          simp only [Option.isSome_some, if_true]
          rw [(bcPopSet_rest (E := E) v).2.2.2.2.2.1, h4, h3]
  · refine ⟨by rw [h1]; simp, by rw [h1]; simp, ?_⟩
    cases h2 with
    | builtin _ h' => exact h'.rtH.2
    | body u w _ j h' h3 h4 =>
      rw [← (hrun u j _ w h' h3).1, ← h4]
      exact finishDest_next (E := E) none w _ (finishDest E none w).1 rfl
    | finish u w _ j info e h' h3 h4 =>
      obtain ⟨r', hf'⟩ := finDest_state e info w _ _ h4
      rw [← (hrun u j _ w h' h3).1]
      exact finishDest_next _ _ _ _ hf'
  · exact absurd rfl (hrun u j _ t h2 h3).2

/-- C22, refusal of a call on the caller's context. -/
theorem c22_refused_same (E : Env χ A) (n : Nat) (i : CallInput) (s t : St χ A) (r : Res (Option Err))
    (hl : E.maxInstances ≤ s.rt.instanceStack.length + 1) (h : (execN E (n + 1)).same i s = (r, t)) :
    r ≠ .oof ∧ (∀ e, r = .ok e → e.isSome) ∧ t.nextInst = s.nextInst := by
  have hst : E.maxInstances ≤ (enterSameState E i s).rt.instanceStack.length := hl
  have hrun : ∀ (r : Res (Option Err)) w, bodySame E (execN E n) (enterSameInput E i s) (enterSameState E i s) = (r, w) →
      w.nextInst = s.nextInst ∧ r ≠ .oof := by
    intro r w he
    rw [(refused_bodySame (ex' := Executor.idle) _ hst).1] at he
    obtain ⟨h1, h2⟩ := (sim_bodySame frameEx_idle.keeps _ _ (fresh_enterSame _ _)).any he
    exact ⟨(h1.noInst hst).trans rfl, h2⟩
  have hfin : ∀ e (u : St χ A), (finishSame E e u).2.nextInst = u.nextInst := by
    intro e u
    by_cases hc : u.out.cur.returnCode ≠ .ok ∨ e.isSome
    · rw [finishSame_fail e u hc]
      show (popSameFail E u).nextInst = _
      unfold popSameFail
      rw [(bcPopSet_rest (E := E) _).2.2.2.2.2.1, (rtPopSet_rest _).2]
    · have h1 : u.out.cur.returnCode = .ok := by
        by_cases h : u.out.cur.returnCode = .ok
        · exact h
        · exact absurd (.inl h) hc
      have h2 : e = none := by
        cases e with
        | none => rfl
        | some e => exact absurd (.inr rfl) hc
      subst h2
      rw [finishSame_ok u h1]
      obtain ⟨r', ins, h3, _⟩ := restoreGas_only (getVMOutput E u).1.gasRemaining (popSameOk (getVMOutput E u).2)
      rw [h3]
      show (popSameOk (getVMOutput E u).2).nextInst = _
      obtain ⟨o, m, h4⟩ := getVMOutput_only (E := E) u
      rw [h4]
      exact (rtPopSet_rest _).2
  rcases execSame_any i s t r h with ⟨h1, h2, _⟩ | ⟨_, ⟨e, u, h1, h2⟩ | ⟨h1, u, h2, h3⟩ | ⟨h1, h2⟩⟩
  · subst h1; subst h2
    exact ⟨by simp, by intro e he; simp only [Res.ok.injEq] at he; rw [← he]; rfl, rfl⟩
  · have h3 := (hrun _ u h1).1
    cases e with
    | none => exact absurd h1 ((refused_bodySame (ex' := Executor.idle) _ hst).2 u)
    | some e =>
      have h4 := hfin (some e) u
      rcases h2 with ⟨h2, h5⟩ | ⟨h2, h5⟩
      · rw [h5] at h4
        exact ⟨by rw [h2]; simp, by intro e he; rw [h2] at he; simp only [Res.ok.injEq] at he; rw [← he]; rfl, h4.trans h3⟩
      · rw [h5] at h4
        exact ⟨by rw [h2]; simp, by rw [h2]; simp, h4.trans h3⟩
  · rw [h1]
    exact ⟨by simp, by simp, by rw [← h3, hfin, (hrun _ u h2).1]⟩
  · exact absurd rfl (hrun _ t h2).2

/-! ### Examples and witnesses -/

section Witness
open Fixture

/-- two contracts that call each other without end -/
def pingEnv (warm : Bool) (max : Nat) : Env World EeiCall := { envWith [
  ([1], mod [(f, callDest (addr 101) f 5000 .ret), (g, .ret)]),
  ([2], mod [(f, callDest (addr 100) f 5000 .ret), (g, .ret)]),
  ([3], mod [(g, .ret)])] warm with maxInstances := max }
def pingNode : World := node [(addr 100, contract [1]), (addr 101, contract [2]), (addr 102, contract [3])]

/-- a fresh host is quiet -/
theorem quiet_host (E : Env World EeiCall) (w : World) : Quiet E (host w) := ⟨⟨.inl rfl, rfl, .inl rfl⟩, rfl⟩

/-- the two contracts run in three instances, then the fourth call is refused and the transaction fails -/
example : codeOf (runTx (pingEnv false 3) 3 (callTx (addr 1) (addr 100) f) (host pingNode)) = some .executionFailed ∧
    (runTx (pingEnv false 3) 3 (callTx (addr 1) (addr 100) f) (host pingNode)).2.nextInst = 3 ∧
    aliveCount (runTx (pingEnv false 3) 3 (callTx (addr 1) (addr 100) f) (host pingNode)).2 = 0 := by decide +kernel

/-- a state in which the running instance is the last one allowed, as needed by `c22_refused_dest` -/
example : (pingEnv false 1).maxInstances ≤ (running (gas := 100000)).rt.instanceStack.length + 1 ∧
    (match (execN (pingEnv false 1) 1).dest { vm := { caller := addr 100, gasProvided := 10000 }, recipient := addr 101, function := g }
        { running (gas := 100000) with world := pingNode } with
     | (.ok r, _) => decide (r.err = some .maxInstancesReached)
     | _ => false) = true := by decide +kernel

/-- C22 fails for the number of alive instances when the warm-instance feature is on: the instance kept for one contract is
dropped without being released when another contract is compiled. Three calls that return at once leave three instances alive,
with a limit of two. -/
theorem c22_warm_neg :
    aliveCount (runAll (pingEnv true 2) 2 [callTx (addr 1) (addr 100) g, callTx (addr 1) (addr 101) g,
      callTx (addr 1) (addr 102) g] (host pingNode)).2 = 3 ∧
    (pingEnv true 2).maxInstances = 2 ∧
    (runAll (pingEnv true 2) 2 [callTx (addr 1) (addr 100) g, callTx (addr 1) (addr 101) g,
      callTx (addr 1) (addr 102) g] (host pingNode)).1.map
        (fun r => (r.getD none).map VMOutput.returnCode) = [some .ok, some .ok, some .ok] := by decide +kernel

end Witness

end Arwen.Props
