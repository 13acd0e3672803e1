import Verif.Props.Depth
import Verif.Props.Cache
import Verif.Spec.Instances
import Verif.Host.Triple
/-
C72: native instances are destroyed exactly once and not used after that.
-/
namespace Arwen.Props
open Arwen Arwen.Spec
variable {χ A : Type} {E : Env χ A}

/-! ### The invariant -/

/-- equal entries of the stack of instances are next to each other -/
def Nested : List (Option Nat) → Prop
  | [] => True
  | a :: l => Nested l ∧ ∀ i, a = some i → some i ∈ l → l.head? = some (some i)

/-- the running instance and those on the stack are alive, all others were destroyed once -/
structure Owned (s : St χ A) : Prop where
  warm : s.rt.warmInstance = none
  alive : ∀ j, some j ∈ s.rt.instance_ :: s.rt.instanceStack → j < s.nextInst ∧ (s.insts j).destroyed = 0
  gone : ∀ j, j < s.nextInst → some j ∉ s.rt.instance_ :: s.rt.instanceStack → (s.insts j).destroyed = 1
  nested : Nested (s.rt.instance_ :: s.rt.instanceStack)

/-- the same instances, destroyed as often, current or on the stack -/
structure SameOwned (s t : St χ A) : Prop where
  warm : t.rt.warmInstance = s.rt.warmInstance
  next : t.nextInst = s.nextInst
  destroyed : ∀ j, (t.insts j).destroyed = (s.insts j).destroyed
  inst : t.rt.instance_ = s.rt.instance_
  stack : t.rt.instanceStack = s.rt.instanceStack

theorem Owned.same {s t : St χ A} (h : Owned s) (he : SameOwned s t) : Owned t := by
  refine ⟨he.warm.trans h.warm, fun j hj => ?_, fun j hj hm => ?_, ?_⟩
  · rw [he.inst, he.stack] at hj; rw [he.next, he.destroyed]; exact h.alive j hj
  · rw [he.inst, he.stack] at hm; rw [he.next] at hj; rw [he.destroyed]; exact h.gone j hj hm
  · rw [he.inst, he.stack]; exact h.nested

theorem SameOwned.modInst {s : St χ A} (i : Nat) (f : Inst A → Inst A) (hf : (f (s.insts i)).destroyed = (s.insts i).destroyed) :
    SameOwned s (s.modInst i f) := by
  refine ⟨rfl, rfl, fun j => ?_, rfl, rfl⟩
  by_cases hj : j = i
  · subst hj; simp [St.modInst, hf]
  · simp [St.modInst, hj]

theorem SameOwned.ofOut {s t : St χ A} {o : OutCtx} (h : SameOwned { s with out := o } t) : SameOwned s t :=
  ⟨h.warm, h.next, h.destroyed, h.inst, h.stack⟩

theorem instStep_destroyed {back : Bool} {x y : Inst A} (h : InstStep back x y) : y.destroyed = x.destroyed := by cases h <;> rfl

theorem nested_none {l : List (Option Nat)} (h : Nested l) : Nested (none :: l) := ⟨h, fun _ h => by cases h⟩

/-- the running instance is destroyed although a caller may wait on it -/
theorem owned_clean {s : St χ A} (h : Owned s) (hn : ∀ i, s.rt.instance_ = some i → some i ∉ s.rt.instanceStack) : Owned s.cleanInstance := by
  unfold St.cleanInstance
  cases hi : s.rt.instance_ with
  | none => exact h
  | some i =>
    have hw : s.isWarm = false := by simp [St.isWarm, hi, h.warm]
    simp only [hw]
    have hn := hn i hi
    have ha := h.alive
    rw [hi] at ha
    refine ⟨h.warm, fun j hj => ?_, fun j hj hm => ?_, ?_⟩
    · have hj' : some j ∈ s.rt.instanceStack := by simpa using hj
      have hne : j ≠ i := fun e => hn (e ▸ hj')
      have := ha j (List.mem_cons_of_mem _ hj')
      exact ⟨this.1, by simpa [St.modInst, hne] using this.2⟩
    · by_cases hne : j = i
      · subst hne
        have := ha j (List.mem_cons_self ..)
        simp [St.modInst, Inst.clean, this.2]
      · have : some j ∉ s.rt.instance_ :: s.rt.instanceStack := by
          rw [hi]
          intro hc
          rcases List.mem_cons.mp hc with hc | hc
          · exact hne (Option.some.inj hc)
          · exact hm (List.mem_cons_of_mem _ hc)
        simpa [St.modInst, hne] using h.gone j hj this
    · have h1 := h.nested
      exact nested_none h1.1

theorem owned_popInstance {s : St χ A} (h : Owned s) : Owned s.popInstance := by
  unfold St.popInstance
  cases hs : s.rt.instanceStack with
  | nil => exact h
  | cons prev rest =>
    dsimp only
    have hN := h.nested
    rw [hs] at hN
    by_cases hp : prev = s.rt.instance_
    · rw [if_pos hp]
      have e : ∀ x, x ∈ s.rt.instance_ :: s.rt.instanceStack ↔ x ∈ s.rt.instance_ :: rest := by
        intro x; rw [hs, hp]; simp
      refine ⟨h.warm, fun j hj => h.alive j ((e _).mpr hj), fun j hj hm => h.gone j hj (fun hc => hm ((e _).mp hc)), ?_⟩
      show Nested (s.rt.instance_ :: rest)
      rw [hp] at hN
      exact hN.1
    · rw [if_neg hp]
      have hn : ∀ i, s.rt.instance_ = some i → some i ∉ s.rt.instanceStack := by
        intro i hi hm
        rw [hs] at hm
        have := hN.2 i hi hm
        simp only [List.head?_cons, Option.some.injEq] at this
        exact hp (this.trans hi.symm)
      have hc := owned_clean h hn
      have h0 := cleanInstance_none h.warm
      obtain ⟨h1, h2, h3⟩ := cleanInstance_rest s
      have e : ({ s with rt := { s.rt with instanceStack := rest } } : St χ A).cleanInstance
          = { s.cleanInstance with rt := { s.cleanInstance.rt with instanceStack := rest } } := by
        unfold St.cleanInstance
        cases hi : s.rt.instance_ with
        | none => simp only
        | some i => simp only [St.isWarm, hi, h.warm]; rfl
      rw [e]
      generalize s.cleanInstance = c at hc h0 h1 h2 h3 ⊢
      have em : ∀ j : Nat, some j ∈ c.rt.instance_ :: c.rt.instanceStack ↔ some j ∈ prev :: rest := by
        intro j; rw [h0, h1, hs]; simp
      exact ⟨hc.warm, fun j hj => hc.alive j ((em j).mpr hj), fun j hj hm => hc.gone j hj (fun hx => hm ((em j).mp hx)), hN.1⟩

theorem owned_rtPopSet {s : St χ A} (h : Owned s) : Owned s.rtPopSet := by
  unfold St.rtPopSet
  split
  · exact h
  · exact owned_popInstance (h.same ⟨rfl, rfl, fun _ => rfl, rfl, rfl⟩)

/-- a caller may wait on the running instance, or there is none -/
theorem fresh_mem (hw : E.useWarm = false) {s : St χ A} (hf : Fresh E s) {j : Nat} (hj : some j ∈ s.rt.instance_ :: s.rt.instanceStack) :
    some j ∈ s.rt.instanceStack := by
  rcases List.mem_cons.mp hj with h1 | h1
  · rcases hf with h2 | h2 | h2
    · rw [h2] at h1; simp at h1
    · rw [← h1] at h2; exact h2
    · rw [hw] at h2; simp at h2
  · exact h1

theorem owned_newInst (hw : E.useWarm = false) {s : St χ A} (hI : Owned s) (m : WasmModule A) (g : UInt64) (new : Bool)
    (hf : Fresh E s) : Owned (newInstance m g new s) := by
  have hlt : ∀ j, some j ∈ s.rt.instanceStack → j < s.nextInst := fun j hj => (hI.alive j (List.mem_cons_of_mem _ hj)).1
  refine ⟨hI.warm, fun j hj => ?_, fun j hj hm => ?_, ?_⟩
  · by_cases hji : j = s.nextInst
    · subst hji
      exact ⟨Nat.lt_succ_self _, by simp [newInstance]⟩
    · have hj' : some j ∈ s.rt.instanceStack := by
        rcases List.mem_cons.mp hj with h1 | h1
        · exact absurd (Option.some.inj h1) hji
        · exact h1
      have := hI.alive j (List.mem_cons_of_mem _ hj')
      exact ⟨Nat.lt_succ_of_lt this.1, by simpa [newInstance, hji] using this.2⟩
  · by_cases hji : j = s.nextInst
    · subst hji
      exact absurd (List.mem_cons_self ..) hm
    · have hj : j < s.nextInst := by have : j < s.nextInst + 1 := hj; omega
      have := hI.gone j hj (fun hc => hm (List.mem_cons_of_mem _ (fresh_mem hw hf hc)))
      simpa [newInstance, hji] using this
  · refine ⟨hI.nested.1, fun i hi hm => ?_⟩
    have hi := Option.some.inj hi
    subst hi
    exact absurd (hlt _ hm) (Nat.lt_irrefl _)

/-- the next number is not on the stack -/
theorem new_not_waiting {s : St χ A} (hI : Owned s) (m : WasmModule A) (g : UInt64) (new : Bool) :
    ∀ i, (newInstance m g new s).rt.instance_ = some i → some i ∉ (newInstance m g new s).rt.instanceStack := by
  intro i hi hm
  have hi : s.nextInst = i := Option.some.inj hi
  subst hi
  exact absurd (hI.alive _ (List.mem_cons_of_mem _ hm)).1 (Nat.lt_irrefl _)

theorem owned_push {s : St χ A} (h : Owned s) {t : St χ A} (hw : t.rt.warmInstance = s.rt.warmInstance) (hn : t.nextInst = s.nextInst)
    (hi : t.insts = s.insts) (hc : t.rt.instance_ = s.rt.instance_) (hs : t.rt.instanceStack = s.rt.instance_ :: s.rt.instanceStack) :
    Owned t := by
  have e : ∀ x, x ∈ t.rt.instance_ :: t.rt.instanceStack ↔ x ∈ s.rt.instance_ :: s.rt.instanceStack := by
    intro x; rw [hc, hs]; simp
  refine ⟨hw.trans h.warm, fun j hj => ?_, fun j hj hm => ?_, ?_⟩
  · rw [hn, hi]; exact h.alive j ((e _).mp hj)
  · rw [hn] at hj; rw [hi]; exact h.gone j hj (fun hx => hm ((e _).mpr hx))
  · rw [hc, hs]
    exact ⟨h.nested, fun i hi _ => by rw [hi]; rfl⟩

/-- With the warm-instance feature off, all operations keep the invariant. -/
theorem owned_unary (hw : E.useWarm = false) : Unary E (Owned (χ := χ) (A := A)) where
  delete s t a i _ _ _ _ h := h.same ⟨rfl, rfl, fun _ => rfl, rfl, rfl⟩
  step := by
    intro s t h hI
    cases h with
    | a _ h =>
      refine hI.same ?_
      cases h with
      | inst i x _ hx => exact .modInst i _ (instStep_destroyed hx)
      | fail i rc m b _ _ => exact (SameOwned.modInst (s := { s with out := (s.out.setReturnCode rc).setReturnMessage m }) i (fun x => { x with bp := b }) rfl).ofOut
      | dest _ i r h _ => exact (halt_dest h).elim
      | same _ i r h _ => exact (halt_same h).elim
      | undo _ i r a ci h => exact (halt_dest h).elim
      | _ => exact ⟨rfl, rfl, fun _ => rfl, rfl, rfl⟩
    | instNone hf =>
      refine ⟨hI.warm, fun j hj => hI.alive j ?_, fun j hj hm => hI.gone j hj (fun hc => hm (List.mem_cons_of_mem _ (fresh_mem hw hf hc))),
        nested_none hI.nested.1⟩
      rcases List.mem_cons.mp hj with h1 | h1
      · simp at h1
      · exact List.mem_cons_of_mem _ h1
    | newInst c new m g hn hf _ => exact owned_newInst hw hI m g new hf
    | warmStart i g h1 => rw [hw] at h1; simp at h1
    | setWarm h1 => rw [hw] at h1; simp at h1
    | clean hs => exact owned_clean hI (fun i _ hm => by rw [hs] at hm; simp at hm)
    | failed c new m g h1 h2 h3 => exact owned_clean (owned_newInst hw hI m g new h2) (new_not_waiting hI m g new)
    | finalize =>
      obtain ⟨o, m, h⟩ := getVMOutput_only (E := E) s
      rw [h]; exact hI.same ⟨rfl, rfl, fun _ => rfl, rfl, rfl⟩
    | _ => exact hI.same ⟨rfl, rfl, fun _ => rfl, rfl, rfl⟩
  stepH := by
    intro s t h hI
    cases h with
    | inst i g h => exact hI.same (.modInst i _ rfl)
    | _ => exact hI.same ⟨rfl, rfl, fun _ => rfl, rfl, rfl⟩
  push := fun s hI => hI.same ⟨rfl, rfl, fun _ => rfl, rfl, rfl⟩
  bcPopSet := fun s hI => by
    obtain ⟨h1, h2, h3, h4, h5, h6, h7⟩ := bcPopSet_rest (E := E) s
    have h8 := bcPopSet_rt (E := E) s
    exact hI.same ⟨by rw [h8], h6, fun _ => by rw [h5], by rw [h8], by rw [h8]⟩
  bcPopDiscard := fun s hI => hI.same ⟨rfl, rfl, fun _ => rfl, rfl, rfl⟩
  onError := fun e s hI => by
    obtain ⟨o, m, h⟩ := outputOnError_only (E := E) s e
    rw [h]; exact hI.same ⟨rfl, rfl, fun _ => rfl, rfl, rfl⟩
  enterDest := fun i s hI => owned_push hI rfl rfl rfl rfl rfl
  enterSame := fun i s hI => owned_push hI rfl rfl rfl rfl rfl
  popDest := fun b s hI => by
    unfold popDest
    refine owned_rtPopSet ?_
    cases b
    · exact hI.same ⟨rfl, rfl, fun _ => rfl, rfl, rfl⟩
    · exact hI.same ⟨rfl, rfl, fun _ => rfl, rfl, rfl⟩
  popSameFail := fun s hI => by
    unfold popSameFail
    have h := owned_rtPopSet (hI.same (t := { s with big := s.big.popSet, met := s.met.popSet, out := s.out.popSet }) ⟨rfl, rfl, fun _ => rfl, rfl, rfl⟩)
    generalize St.rtPopSet _ = u at h ⊢
    obtain ⟨h1, h2, h3, h4, h5, h6, h7⟩ := bcPopSet_rest (E := E) u
    have h8 := bcPopSet_rt (E := E) u
    exact h.same ⟨by rw [h8], h6, fun _ => by rw [h5], by rw [h8], by rw [h8]⟩
  popSameOk := fun s hI => owned_rtPopSet (hI.same ⟨rfl, rfl, fun _ => rfl, rfl, rfl⟩)
  restore := fun g s hI => by
    obtain ⟨r, ins, h, _, hi⟩ := restoreGas_only g s
    rw [h]
    refine hI.same ⟨rfl, rfl, fun j => ?_, rfl, rfl⟩
    rcases hi j with h | ⟨_, _, h⟩
    · show (ins j).destroyed = _; rw [h]
    · show (ins j).destroyed = _; rw [h]

/-! ### The properties -/

theorem mem_inUse {s : St χ A} {i : Nat} : i ∈ inUse s ↔ some i ∈ s.rt.instance_ :: s.rt.instanceStack := by
  simp [inUse, List.mem_filterMap]

theorem Owned.sound {s : St χ A} (h : Owned s) : sound s = true := by
  unfold Spec.sound
  rw [Bool.and_eq_true, List.all_eq_true, List.all_eq_true]
  refine ⟨fun i hi => ?_, fun i hi => ?_⟩
  · have := h.alive i (mem_inUse.mp hi)
    simp [usable, this.1, this.2]
  · have hi := List.mem_range.mp hi
    by_cases hm : some i ∈ s.rt.instance_ :: s.rt.instanceStack
    · have h1 := h.alive i hm
      have h2 : (inUse s).contains i = true := List.contains_iff_mem.mpr (mem_inUse.mpr hm)
      rw [h2, h1.2]; rfl
    · rw [h.gone i hi hm]; simp

theorem releasedOnce_iff (s : St χ A) : releasedOnce s = true ↔ ∀ j, j < s.nextInst → (s.insts j).destroyed = 1 := by
  simp [releasedOnce]

theorem interp_free_bind (ex : Executor χ A) {α β : Type} (p : Free χ A α) (f : α → Free χ A β) :
    interp E ex (p.bind f) = interp E ex p >>= fun a => interp E ex (f a) := by
  induction p with
  | pure a => rfl
  | panic => rfl
  | ask k ih => funext s; exact congrFun (ih s) s
  | op c k ih =>
    funext s
    simp only [Free.bind, interp, M.bind_eq, M.bind]
    generalize runCmd E ex c s = q
    obtain ⟨r, t⟩ := q
    cases r with
    | ok a => exact congrFun (ih a) t
    | panic => rfl
    | oof => rfl

theorem owned_start {s : St χ A} (hr : AtRest E s) (h : releasedOnce s = true) (hw : E.useWarm = false) (tx : Tx) : Owned (txStart E tx s) := by
  obtain ⟨h1, h2, h3⟩ := txStart_rt (E := E) tx s
  have h4 := txStart_insts (E := E) tx s
  have hi : s.rt.instance_ = Option.none := hr.inst.resolve_right (by simp [hw])
  refine ⟨h3.trans (hr.warm.resolve_right (by simp [hw])), fun j hj => ?_, fun j hj _ => ?_, ?_⟩
  · rw [h1, h2, hr.stack, hi] at hj
    simp at hj
  · rcases h4 with ⟨h4, h5⟩ | h4
    · rw [h4]
      rw [h5] at hj
      exact (releasedOnce_iff s).mp h j hj
    · rw [h4] at hj
      exact absurd hj (Nat.not_lt_zero j)
  · rw [h1, h2, hr.stack, hi]
    exact ⟨trivial, fun _ h => by cases h⟩

/-- C72, no use after destruction: whatever the contracts do, a host that checks at every call of an API function, and again when
the function returns to the contract, that no instance in use is destroyed, that none was destroyed twice, that none is lost, and
that the function returns to the instance that called it, does the same as the host without these checks - at any depth. -/
theorem c72_no_use_after_partial (E : Env χ A) (hw : E.useWarm = false) (n : Nat) (tx : Tx) (s : St χ A) (hr : AtRest E s)
    (h : releasedOnce s = true) (hn : (runTx E n tx s).1 ≠ none) :
    runTx (E.withApi (watchedApi E)) n tx s = runTx E n tx s := by
  refine (le_runTx (owned_unary hw).invariant ?_ (Nat.le_refl n) tx s hr (owned_start hr h hw tx)).resolve_left hn
  intro n m hB a s hI
  have h := le_interp hB.toA (E.api a) (fun _ h => ⟨a, h⟩) hI
  unfold LeIf at h ⊢
  rcases h with h | h
  · exact .inl h
  · right
    have hs : SimAt (execN E n) (StepA E (execN E n)) (interp E (execN E n) (E.api a)) s := sim_interp (keepsInst_execN E n) (E.api a) (fun _ h => ⟨a, h⟩) s
    have e : interp (E.withApi (watchedApi E)) (execN (E.withApi (watchedApi E)) m) (watchedApi E a) s
        = (interp (E.withApi (watchedApi E)) (execN (E.withApi (watchedApi E)) m) (E.api a) >>= fun r t =>
          interp (E.withApi (watchedApi E)) (execN (E.withApi (watchedApi E)) m)
            (if sound t && decide (t.rt.instance_ = s.rt.instance_) then .pure r else .panic) t) s := by
      simp only [watchedApi, interp, hI.sound, if_true, interp_free_bind]
    rw [e]
    show _ = M.bind _ _ s
    unfold M.bind
    rw [← h]
    generalize hq : interp E (execN E n) (E.api a) s = q
    obtain ⟨r, t⟩ := q
    cases r with
    | panic => rfl
    | oof => rfl
    | ok r =>
      have h1 := hB.invA hs hq hI
      have h2 := (hs.ok hq).inst_eq
      simp only [h1.sound, h2, decide_true, Bool.and_self, if_true]
      rfl

/-- C72, exactly once: after a transaction, whatever its outcome, every native instance that was made was destroyed exactly
once. -/
theorem c72_once_partial (E : Env χ A) (hw : E.useWarm = false) (n : Nat) (tx : Tx) (s : St χ A) (hr : AtRest E s)
    (h : releasedOnce s = true) (hn : (runTx E n tx s).1 ≠ none) :
    AtRest E (runTx E n tx s).2 ∧ releasedOnce (runTx E n tx s).2 = true := by
  have h0 := runTx_rest n tx s hr hn
  refine ⟨h0, ?_⟩
  have h1 := runTx_any (E := E) n tx s
  generalize (runTx E n tx s).2 = v at h1 h0
  generalize (runTx E n tx s).1 = q at h1 hn
  have body : ∀ (r : Res VMOutput) (t : St χ A), txBody E (execN E n) tx (hostInit E s) = (r, t) → r ≠ .oof → Owned t := by
    intro r t he hx
    exact (owned_unary hw).txBody (fun s d _ hI => hI.same ⟨rfl, rfl, fun _ => rfl, rfl, rfl⟩) n tx hr he hx (owned_start hr h hw tx)
  have stack : ∀ t : St χ A, AtRest E (hostClean t) → t.rt.instanceStack = [] := by
    intro t ht
    have := ht.stack
    unfold hostClean at this
    split at this
    · exact this
    · rw [← (cleanInstance_rest t).1]; exact this
  have key : ∀ (r : Res VMOutput) (t : St χ A), txBody E (execN E n) tx (hostInit E s) = (r, t) → r ≠ .oof →
      t.rt.instanceStack = [] → Owned (hostClean t) := by
    intro r t he hx ht
    have hb := body r t he hx
    unfold hostClean
    split
    · exact hb
    · exact owned_clean hb (fun i _ hm => by rw [ht] at hm; simp at hm)
  have fin : ∀ t : St χ A, Owned t → AtRest E t → releasedOnce t = true := by
    intro t hb ha
    rw [releasedOnce_iff]
    intro j hj
    refine hb.gone j hj ?_
    rw [ha.stack, ha.inst.resolve_right (by simp [hw])]
    simp
  cases h1 with
  | ok o t h5 => exact fin _ (key _ t h5 (by simp) (stack t h0)) h0
  | panic t h5 => exact fin _ (key _ t h5 (by simp) (stack t h0)) h0
  | oof t h5 => exact absurd rfl hn
  | reset o t h5 h6 =>
    have hb := body _ t h5 (by simp)
    have hb' : (hostClean t).rt.warmInstance = Option.none := by
      unfold hostClean
      split
      · exact hb.warm
      · exact (cleanInstance_rest t).2.1.trans hb.warm
    unfold St.isWarm at h6
    rw [hb'] at h6
    cases hi : (hostClean t).rt.instance_ with
    | some i => rw [hi] at h6; simp at h6
    | none =>
      have e : (hostClean t).resetWarm = hostClean t := by unfold St.resetWarm; simp only [hi]
      rw [e] at h0 ⊢
      exact fin _ (key _ t h5 (by simp) (stack t h0)) h0

/-- C72 over histories of transactions: with the checks or without, the results are the same, and at the end every instance of
the last transaction was destroyed exactly once. -/
theorem c72_history_partial (E : Env χ A) (hw : E.useWarm = false) (n : Nat) (h1 : 1 ≤ n) (hn : E.maxInstances ≤ n) :
    ∀ (txs : List Tx) (s : St χ A), AtRest E s → releasedOnce s = true →
      runAll (E.withApi (watchedApi E)) n txs s = runAll E n txs s ∧ releasedOnce (runAll E n txs s).2 = true
  | [], s, _, h => ⟨rfl, h⟩
  | tx :: rest, s, hr, h => by
    have h2 := runTx_enough h1 hn tx s hr
    have h3 := c72_no_use_after_partial E hw n tx s hr h h2
    obtain ⟨h4, h5⟩ := c72_once_partial E hw n tx s hr h h2
    obtain ⟨h6, h7⟩ := c72_history_partial E hw n h1 hn rest _ h4 h5
    exact ⟨by simp only [runAll, h3, h6], h7⟩

/-- the state right after the new instance was made for the start in state `s` -/
structure Made (s u : St χ A) : Prop where
  others : ∀ j, j < s.nextInst → u.insts j = s.insts j
  alive : (u.insts s.nextInst).destroyed = 0
  cur : u.rt.instance_ = some s.nextInst
  warm : u.rt.warmInstance = none
  next : u.nextInst = s.nextInst + 1
  stack : u.rt.instanceStack = s.rt.instanceStack

/-- the start failed: there is no running instance, and what was made was destroyed -/
structure Unmade (s u : St χ A) : Prop where
  others : ∀ j, j < s.nextInst → u.insts j = s.insts j
  gone : ∀ j, s.nextInst ≤ j → j < u.nextInst → (u.insts j).destroyed = 1
  cur : u.rt.instance_ = none
  stack : u.rt.instanceStack = s.rt.instanceStack

theorem made_new {s : St χ A} (hs : s.rt.warmInstance = none) (m : WasmModule A) (g : UInt64) (new : Bool) : Made s (newInstance m g new s) :=
  ⟨fun j hj => by simp [newInstance, Nat.ne_of_lt hj], by simp [newInstance], rfl, hs, rfl, rfl⟩

theorem Made.clean {s u : St χ A} (h : Made s u) : Unmade s u.cleanInstance := by
  have e : u.cleanInstance = { u.modInst s.nextInst Inst.clean with rt := { u.rt with instance_ := none } } := by
    simp [St.cleanInstance, h.cur, St.isWarm, h.warm]
  rw [e]
  refine ⟨fun j hj => ?_, fun j h1 h2 => ?_, rfl, h.stack⟩
  · have : j ≠ s.nextInst := Nat.ne_of_lt hj
    simp only [St.modInst, this, if_false]
    exact h.others j hj
  · have h2 : j < u.nextInst := h2
    have hj : j = s.nextInst := by have := h.next; omega
    subst hj
    simp [St.modInst, h.alive, Inst.clean]

/-- the end of a start -/
def StartEnd (s : St χ A) (r : Option Err) (t : St χ A) : Prop := (r = none → Made s t) ∧ (r ≠ none → Unmade s t)

theorem start_tri (hw : E.useWarm = false) (code : Bytes) (g : UInt64) (new : Bool) (s : St χ A) (hs : s.rt.warmInstance = none) :
    Tri (fun t => t = s) (startInstance E code g new) (StartEnd s) := by
  have none_ : ∀ t : St χ A, t = s → Unmade s { t with rt := { t.rt with instance_ := none } } := by
    rintro _ rfl
    exact ⟨fun _ _ => rfl, fun j h1 h2 => absurd h2 (Nat.not_lt.mpr h1), rfl, rfl⟩
  have bad : ∀ {P : St χ A → Prop} (e : Err), (∀ t, P t → Unmade s t) → Tri P (pure (some e)) (StartEnd s) :=
    fun e h => tri_pure fun t ht => ⟨(fun e => by cases e), fun _ => h t ht⟩
  have good : Tri (Made s) (pure none) (StartEnd s) := tri_pure fun t ht => ⟨fun _ => ht, fun h => absurd rfl h⟩
  have verify : Tri (Made s) (verifyContractCode E) (fun _ => Made s) := by
    unfold verifyContractCode
    refine tri_get' fun _ => ?_
    split
    · exact tri_pure fun _ h => h
    · refine tri_bind (T := fun _ => Made s) (tri_modify fun t h => ⟨h.others, h.alive, h.cur, h.warm, h.next, h.stack⟩) fun _ => ?_
      split
      · exact tri_panic
      · exact tri_pure fun _ h => h
  unfold startInstance
  refine tri_get fun s0 h0 => ?_
  refine tri_pre (P := fun t => t = s) ?_ (fun t ht => ht.trans h0)
  refine tri_ite (fun _ => ?_) (fun _ => ?_)
  · exact tri_bind (T := fun _ => Unmade s) (tri_modify none_) fun _ => bad _ fun _ h => h
  · have hsw : ∀ s : St χ A, setWarm E g s = (.ok false, s) := by intro s; simp [setWarm, hw]
    refine tri_bind (T := fun b t => b = false ∧ t = s) ?_ fun b => ?_
    · intro t b u h he
      rw [hsw] at he
      cases he
      exact ⟨rfl, h⟩
    · intro t r u ⟨hb, h⟩ he
      subst hb
      rw [if_neg (by simp), get_bind] at he
      revert he
      generalize getCodeHash E t t.rt.cur.scAddress = hsh
      revert t r u
      suffices hsuf : Tri (fun t => t = s) (M.lift (fromCompiled E hsh g new) >>= fun used =>
          if used = true then pure none else fromByteCode E code hsh g new) (StartEnd s) by
        intro t r u h he
        exact hsuf t r u h he
      refine tri_bind (T := fun b t => if b then Made s t else t = s) ?_ fun b => ?_
      · refine tri_lift fun t h => ?_
        subst h
        unfold fromCompiled
        by_cases h1 : (!t.flags.aot) = true
        · rw [if_pos h1]; rfl
        · rw [if_neg h1]
          by_cases h2 : (new || decide (hsh.length = 0)) = true
          · rw [if_pos h2]; rfl
          · rw [if_neg h2]
            split
            · rfl
            · split
              · rfl
              · rename_i m _
                have := made_new hs m g new
                exact ⟨this.others, this.alive, this.cur, this.warm, this.next, this.stack⟩
      · refine tri_ite (fun hb => ?_) (fun hb => ?_)
        · exact tri_pre good (fun t h => by rw [if_pos hb] at h; exact h)
        · refine tri_pre (P := fun t => t = s) ?_ (fun t h => by rw [if_neg hb] at h; exact h)
          unfold fromByteCode
          split
          · exact tri_bind (T := fun _ => Unmade s) (tri_modify none_) fun _ => bad _ fun _ h => h
          · rename_i m _
            refine tri_bind (T := fun _ => Made s) (tri_modify fun t h => by rw [h]; exact made_new hs m g new) fun _ => ?_
            dsimp only
            have warm : Tri (χ := χ) (A := A) (Made s) (do
                if E.useWarm then
                  M.modify (fun s => { s with rt := { s.rt with warmAddress := some s.rt.cur.scAddress, warmInstance := s.rt.instance_ } })
                else pure ()
                pure none) (StartEnd s) := by
              refine tri_ite (fun h => ?_) (fun _ => good)
              rw [hw] at h; cases h
            have bad' : ∀ e : Err, Tri (χ := χ) (A := A) (Made s) (do
                M.modify St.cleanInstance
                pure (some e)) (StartEnd s) :=
              fun e => tri_bind (T := fun _ => Unmade s) (tri_modify fun t h => h.clean) fun _ => bad e fun _ h => h
            split
            · exact bad' _
            · split
              · refine tri_ite (fun _ => tri_bind verify fun e => ?_) (fun _ => tri_bind (T := fun _ => Made s) (tri_pure fun _ h => h) fun e => ?_)
                · cases e with
                  | some e => exact bad' e
                  | none => exact warm
                · cases e with
                  | some e => exact bad' e
                  | none => exact warm
              · refine tri_bind (T := fun _ => Made s) (tri_modify fun t h => ⟨h.others, h.alive, h.cur, h.warm, h.next, h.stack⟩) fun _ => ?_
                refine tri_ite (fun _ => tri_bind verify fun e => ?_) (fun _ => tri_bind (T := fun _ => Made s) (tri_pure fun _ h => h) fun e => ?_)
                · cases e with
                  | some e => exact bad' e
                  | none => exact warm
                · cases e with
                  | some e => exact bad' e
                  | none => exact warm

/-- C72, start: code that is about to run has an instance of its own, made just now and not destroyed; if the start fails there is
no running instance and what was made for it was destroyed once. The other instances are not touched. -/
theorem c72_start_partial (E : Env χ A) (hw : E.useWarm = false) (code : Bytes) (g : UInt64) (new : Bool) (s t : St χ A)
    (hs : s.rt.warmInstance = none) (r : Option Err) (h : startInstance E code g new s = (.ok r, t)) :
    (∀ j, j < s.nextInst → t.insts j = s.insts j) ∧ t.rt.instanceStack = s.rt.instanceStack ∧
    (r = none → t.rt.instance_ = some s.nextInst ∧ usable t s.nextInst = true ∧ t.nextInst = s.nextInst + 1) ∧
    (r ≠ none → t.rt.instance_ = none ∧ ∀ j, s.nextInst ≤ j → j < t.nextInst → (t.insts j).destroyed = 1) := by
  obtain ⟨h1, h2⟩ := start_tri hw code g new s hs s r t rfl h
  cases r with
  | none =>
    have h1 := h1 rfl
    exact ⟨h1.others, h1.stack, fun _ => ⟨h1.cur, by simp [usable, h1.next, h1.alive], h1.next⟩, fun h => absurd rfl h⟩
  | some e =>
    have h2 := h2 (by simp)
    exact ⟨h2.others, h2.stack, fun h => by (cases h), fun _ => ⟨h2.cur, h2.gone⟩⟩

/-! ### Examples and witnesses -/

section Witness
open Fixture

/-- two contracts that call each other, up to the limit: the hypotheses are met, instances are made at three levels, and the last
call fails -/
example : releasedOnce (host pingNode) = true ∧ AtRest (pingEnv false 3) (host pingNode) ∧
    (runTx (pingEnv false 3) 3 (callTx (addr 1) (addr 100) f) (host pingNode)).1 ≠ none ∧
    (runTx (pingEnv false 3) 3 (callTx (addr 1) (addr 100) f) (host pingNode)).2.nextInst = 3 ∧
    releasedOnce (runTx (pingEnv false 3) 3 (callTx (addr 1) (addr 100) f) (host pingNode)).2 = true :=
  ⟨rfl, (quiet_host _ _).toAtRest, by decide +kernel, by decide +kernel, by decide +kernel⟩

/-- `f` of A (100) calls C (102), then computes on; `g` of A calls B (101); `g` of C calls `g` of A -/
def reuseMods : List (Bytes × WasmModule EeiCall) :=
  [([1], mod [(f, callDest (addr 102) g 20000 (.call (.getGasLeft) fun _ => .ret)), (g, callDest (addr 101) f 3000 .ret)]),
   ([2], mod [(f, .ret)]),
   ([3], mod [(f, .ret), (g, callDest (addr 100) g 10000 .ret)])]
def reuseEnv (warm : Bool) : Env World EeiCall := Env.real { envWith reuseMods warm with hook := cacheHook none }
def reuseHost : St World EeiCall := host (node [(addr 100, contract [1]), (addr 101, contract [2]), (addr 102, contract [3])])
def reuseTxs : List Tx := [callTx (addr 1) (addr 102) f, callTx (addr 1) (addr 100) f]

/-- C72 fails when the warm-instance feature is on: contract A runs in the instance that is kept warm and calls C, C calls A again,
which runs in the same instance and calls B; B becomes the warm contract, so when the inner A returns its instance is destroyed,
although the outer A still waits in it. The outer A runs on in the destroyed instance, which is destroyed a second time at the end.
A host that checks the API functions panics there; the host without the check reports success. Without the warm instance every
instance is destroyed once. -/
theorem c72_warm_neg :
    ((runAll (reuseEnv true) 9 reuseTxs reuseHost).2.insts 1).destroyed = 2 ∧
    (runAll (reuseEnv true) 9 reuseTxs reuseHost).1.map (fun r => (r.getD none).map VMOutput.returnCode) = [some .ok, some .ok] ∧
    (runAll ((reuseEnv true).withApi (watchedApi (reuseEnv true))) 9 reuseTxs reuseHost).1.map
      (fun r => (r.getD none).map VMOutput.returnCode) = [some .ok, none] ∧
    releasedOnce (runAll (reuseEnv false) 9 reuseTxs reuseHost).2 = true := by decide +kernel

end Witness

end Arwen.Props
