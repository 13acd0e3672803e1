import Verif.Spec.Scenario
import Verif.Props.Independent
import Verif.Props.Executor
import Verif.Props.Check
import Verif.World.ToyCodec
/-
C57, C58: scenarios are executed step by step as they are written, and do not depend on the scenarios before them.
-/
namespace Arwen.Props
open Arwen Arwen.Mock Arwen.Spec

/-! ### Transactions on idle hosts -/

section
variable {χ A : Type} {E : Env χ A}

theorem idle_env {E' : Env χ A} (hw : E.useWarm = false) {s : St χ A} (h : Idle E s) : Idle E' s :=
  ⟨⟨⟨.inl (h.inst.resolve_right (by simp [hw])), h.stack, .inl (h.warm.resolve_right (by simp [hw]))⟩, h.none⟩, h.prot, h.noWarm⟩

theorem idle_world {s : St χ A} (h : Idle E s) (w : χ) : Idle E { s with world := w } :=
  ⟨⟨⟨h.inst, h.stack, h.warm⟩, h.none⟩, h.prot, h.noWarm⟩

theorem idle_sched {s : St χ A} (h : Idle E s) (g : GasSchedule) : Idle E { s with met := { s.met with sched := g } } :=
  ⟨⟨⟨h.inst, h.stack, h.warm⟩, h.none⟩, h.prot, h.noWarm⟩

/-- what decides the outcome of further transactions on an idle host -/
def view (s : St χ A) : χ × UInt64 := (s.world, s.rt.codeSize)

theorem body_restored (n : Nat) (tx : Tx) (a : Addr) (u : St χ A) :
    (txBody E (execN E n) tx (restored a u)).1 = (txBody E (execN E n) tx u).1 ∧
    view (txBody E (execN E n) tx (restored a u)).2 = view (txBody E (execN E n) tx u).2 := by
  cases tx with
  | call i =>
    have h : enterCallState i (restored a u) = enterCallState i u := rfl
    have h' : enterCallInput i (restored a u) = enterCallInput i u := rfl
    simp only [txBody]
    split
    · simp only [upgradeBody_run]
      rw [h]
      exact ⟨rfl, rfl⟩
    · simp only [callBody_run]
      rw [h, h']
      exact ⟨rfl, rfl⟩
  | create i =>
    simp only [txBody, createBody_run]
    rw [newAddress_restored]
    generalize newAddress E i.vm.caller u = q
    obtain ⟨r, t⟩ := q
    cases r <;> exact ⟨rfl, rfl⟩

theorem view_body (n : Nat) (tx : Tx) (s : St χ A) : view (runTx E n tx s).2 = view (txBody E (execN E n) tx (hostInit E s)).2 := by
  have e1 : ∀ u : St χ A, view (hostClean u) = view u := by
    intro u
    unfold hostClean St.cleanInstance
    repeat' split
    all_goals rfl
  have e2 : ∀ u : St χ A, view u.resetWarm = view u := by
    intro u
    unfold St.resetWarm
    split <;> rfl
  have h := runTx_any (E := E) n tx s
  generalize (runTx E n tx s).1 = q at h
  generalize (runTx E n tx s).2 = v at h ⊢
  cases h with
  | ok o t h => rw [h, e1]
  | reset o t h _ => rw [h, e2, e1]
  | panic t h => rw [h, e1]
  | oof t h => rw [h]

/-- Two hosts that finished their transactions do the same if they have the same world and schedule, and loaded code of the same
size last. -/
theorem runTx_same [BlindApi E] (hw : E.useWarm = false) (n : Nat) (tx : Tx) {s t : St χ A} (hs : Idle E s) (ht : Idle E t) (hv : view s = view t)
    (hg : s.met.sched = t.met.sched) : (runTx E n tx s).1 = (runTx E n tx t).1 ∧ view (runTx E n tx s).2 = view (runTx E n tx t).2 := by
  obtain ⟨h1, h2⟩ := Prod.mk.inj hv
  have e : likeFresh E s = restored s.sto.addr (likeFresh E t) := by
    unfold likeFresh
    rw [h1, h2, hg]
    rfl
  have k := fun u => congrArg Prod.fst (seen_body (E := E) n tx u)
  obtain ⟨b1, b2⟩ := body_restored (E := E) n tx s.sto.addr (likeFresh E t)
  refine ⟨?_, ?_⟩
  · exact (k s).trans ((congrArg runResult (by rw [body_idle hw n tx hs, body_idle hw n tx ht, e]; exact b1)).trans (k t).symm)
  · rw [view_body, view_body, body_idle hw n tx hs, body_idle hw n tx ht, e]
    exact b2

/-- for calls the size of the code does not matter -/
theorem runTx_call_same [BlindApi E] (hw : E.useWarm = false) (n : Nat) (i : CallInput) (hf : i.function ≠ upgradeName) {s t : St χ A} (hs : Idle E s)
    (ht : Idle E t) (hv : s.world = t.world) (hg : s.met.sched = t.met.sched) :
    seen (runTx E n (.call i) s) = seen (runTx E n (.call i) t) := by
  rw [c46_call_partial E hw n i hf s hs, c46_call_partial E hw n i hf t ht, hv, hg]

end

variable {A : Type} {E : Env MockWorld A} {L : Lib}

/-- two idle hosts over the same world with the same schedule -/
structure Alike (E : Env MockWorld A) (s t : St MockWorld A) : Prop where
  left : Idle E s
  right : Idle E t
  world : s.world = t.world
  sched : s.met.sched = t.met.sched

/-- what a transaction step gives on two hosts: the same result, the same world, and the same size if it was the same before -/
def AlikeResults {α : Type} (s t : St MockWorld A) (p q : α × St MockWorld A) : Prop :=
  p.1 = q.1 ∧ p.2.world = q.2.world ∧ (s.rt.codeSize = t.rt.codeSize → p.2.rt.codeSize = q.2.rt.codeSize)

theorem runTx_alike [BlindApi E] (hw : E.useWarm = false) (n : Nat) (tx : Tx) {s t : St MockWorld A} (h : Alike E s t)
    (hp : s.rt.codeSize = t.rt.codeSize ∨ ∃ i, tx = .call i ∧ i.function ≠ upgradeName) :
    AlikeResults s t (runTx E n tx s) (runTx E n tx t) := by
  by_cases hc : s.rt.codeSize = t.rt.codeSize
  · obtain ⟨h1, h2⟩ := runTx_same hw n tx h.left h.right (Prod.ext h.world hc) h.sched
    obtain ⟨h3, h4⟩ := Prod.mk.inj h2
    exact ⟨h1, h3, fun _ => h4⟩
  · obtain ⟨i, rfl, hf⟩ := hp.resolve_left hc
    obtain ⟨h1, h2⟩ := Prod.mk.inj (runTx_call_same hw n i hf h.left h.right h.world h.sched)
    exact ⟨h1, h2, fun h => absurd h hc⟩

theorem scCall_alike [BlindApi E] (hw : E.useWarm = false) (n : Nat) (index : Bytes) (tx : ScTx) (gas : UInt64) {s t : St MockWorld A} (h : Alike E s t)
    (hp : s.rt.codeSize = t.rt.codeSize ∨ tx.function ≠ upgradeName) :
    AlikeResults s t (scCall E n index tx gas s) (scCall E n index tx gas t) := by
  unfold scCall
  rw [← h.world]
  split
  · exact ⟨rfl, h.world, id⟩
  · split
    · exact ⟨rfl, h.world, id⟩
    · obtain ⟨h1, h2, h3⟩ := runTx_alike hw n (.call { vm := vmInput index tx gas, recipient := tx.to, function := tx.function }) h
        (hp.imp id (fun hf => ⟨_, rfl, hf⟩))
      exact ⟨congrArg vmResult h1, h2, h3⟩

theorem runKind_alike [BlindApi E] (hw : E.useWarm = false) (n : Nat) (index : Bytes) (tx : ScTx) (gas : UInt64) {s t : St MockWorld A} (h : Alike E s t)
    (hp : s.rt.codeSize = t.rt.codeSize ∨ PlainTx tx) :
    AlikeResults s t (runKind E n index tx gas s) (runKind E n index tx gas t) := by
  unfold runKind
  rw [← h.world]
  split
  · exact ⟨rfl, h.world, id⟩
  · cases hk : tx.kind with
    | scDeploy =>
      obtain ⟨h1, h2, h3⟩ := runTx_alike hw n (.create { vm := vmInput index tx gas, code := tx.code, metadata := [] }) h
        (.inl (hp.resolve_right (fun hx => hx.1 hk)))
      exact ⟨congrArg vmResult h1, h2, h3⟩
    | scCall => exact scCall_alike hw n index tx gas h (hp.imp id (·.2))
    | scQuery => exact scCall_alike hw n index _ _ h (hp.imp id (·.2))
    | transfer => exact ⟨rfl, h.world, id⟩
    | validatorReward => exact ⟨rfl, rfl, id⟩

theorem Alike.setWorld {s t : St MockWorld A} (h : Alike E s t) (w : MockWorld) : Alike E { s with world := w } { t with world := w } :=
  ⟨idle_world h.left w, idle_world h.right w, rfl, h.sched⟩

theorem executeTx_alike [BlindApi E] (hw : E.useWarm = false) (n : Nat) (index : Bytes) (tx : ScTx) {s t : St MockWorld A} (h : Alike E s t)
    (hp : s.rt.codeSize = t.rt.codeSize ∨ PlainTx tx) :
    AlikeResults s t (executeTx E L n index tx s) (executeTx E L n index tx t) := by
  unfold executeTx
  rw [← h.world]
  generalize beforeTx L tx s.world.backup = q
  obtain ⟨r, w⟩ := q
  have k := fun gas => runKind_alike hw n index tx gas (h.setWorld w) hp
  match r with
  | .error (e, true) => exact ⟨rfl, rfl, id⟩
  | .error (e, false) => exact ⟨rfl, rfl, id⟩
  | .ok gas =>
    have k := k gas
    dsimp only
    generalize runKind E n index tx gas { s with world := w } = a at k ⊢
    generalize runKind E n index tx gas { t with world := w } = b at k ⊢
    obtain ⟨a1, a2⟩ := a
    obtain ⟨b1, b2⟩ := b
    obtain ⟨k1, k2, k3⟩ := k
    dsimp only at k1 k2 k3 ⊢
    subst k1
    match a1 with
    | none => exact ⟨rfl, k2, k3⟩
    | some (.error e) => exact ⟨rfl, by dsimp only; rw [k2], k3⟩
    | some (.ok o) =>
      dsimp only
      rw [k2]
      split
      · exact ⟨rfl, rfl, k3⟩
      · exact ⟨rfl, rfl, k3⟩

/-! ### A transaction leaves an idle host idle -/

theorem runKind_idle (hw : E.useWarm = false) (n : Nat) (index : Bytes) (tx : ScTx) (gas : UInt64) {s : St MockWorld A} (h : Idle E s)
    (h1 : (runKind E n index tx gas s).1 ≠ none) :
    Idle E (runKind E n index tx gas s).2 ∧ (runKind E n index tx gas s).2.met.sched = s.met.sched := by
  have call : ∀ tx gas, (scCall E n index tx gas s).1 ≠ none →
      Idle E (scCall E n index tx gas s).2 ∧ (scCall E n index tx gas s).2.met.sched = s.met.sched := by
    intro tx gas h1
    unfold scCall at h1 ⊢
    split
    · exact ⟨h, rfl⟩
    · rename_i acc hacc
      rw [hacc] at h1
      dsimp only at h1
      split
      · exact ⟨h, rfl⟩
      · rename_i hc
        rw [if_neg hc] at h1
        exact idle_kept hw n _ s h (vmResult_some h1)
  unfold runKind at h1 ⊢
  split
  · exact ⟨h, rfl⟩
  · rename_i hb
    rw [if_neg hb] at h1
    cases hkind : tx.kind with
    | scDeploy => rw [hkind] at h1; exact idle_kept hw n _ s h (vmResult_some h1)
    | scCall => rw [hkind] at h1; exact call _ _ h1
    | scQuery => rw [hkind] at h1; exact call _ _ h1
    | transfer => exact ⟨h, rfl⟩
    | validatorReward => exact ⟨idle_world h _, rfl⟩

theorem executeTx_idle (hw : E.useWarm = false) (n : Nat) (index : Bytes) (tx : ScTx) {s : St MockWorld A} (h : Idle E s)
    (h1 : (executeTx E L n index tx s).1 ≠ none) :
    Idle E (executeTx E L n index tx s).2 ∧ (executeTx E L n index tx s).2.met.sched = s.met.sched := by
  unfold executeTx at h1 ⊢
  generalize beforeTx L tx s.world.backup = q at h1 ⊢
  obtain ⟨r, w⟩ := q
  have k := fun gas => runKind_idle hw n index tx gas (idle_world h w)
  match r with
  | .error (e, true) => exact ⟨idle_world h _, rfl⟩
  | .error (e, false) => exact ⟨idle_world h _, rfl⟩
  | .ok gas =>
    have k := k gas
    dsimp only at h1 ⊢
    generalize runKind E n index tx gas { s with world := w } = a at k h1 ⊢
    obtain ⟨a1, a2⟩ := a
    dsimp only at k h1 ⊢
    match a1 with
    | none => exact absurd rfl h1
    | some (.error e) =>
      obtain ⟨k1, k2⟩ := k (by simp)
      exact ⟨idle_world k1 _, k2⟩
    | some (.ok o) =>
      obtain ⟨k1, k2⟩ := k (by simp)
      dsimp only
      split
      · exact ⟨idle_world k1 _, k2⟩
      · exact ⟨idle_world k1 _, k2⟩

/-- enough fuel for nested calls gives every transaction a result -/
theorem executeTx_enough (n : Nat) (hn1 : 1 ≤ n) (hn : E.maxInstances ≤ n) (index : Bytes) (tx : ScTx) {s : St MockWorld A} (h : AtRest E s) :
    (executeTx E L n index tx s).1 ≠ none := by
  have hr : ∀ r : RunResult, r ≠ none → vmResult r ≠ none := by
    intro r hr
    match r with
    | none => exact absurd rfl hr
    | some none => exact fun h => by cases h
    | some (some o) => exact fun h => by cases h
  have call : ∀ w tx gas, (scCall E n index tx gas { s with world := w }).1 ≠ none := by
    intro w tx gas
    unfold scCall
    split
    · simp
    · split
      · simp
      · exact hr _ (runTx_enough hn1 hn _ _ (atRest_world h w))
  have kind : ∀ w gas, (runKind E n index tx gas { s with world := w }).1 ≠ none := by
    intro w gas
    unfold runKind
    split
    · simp
    · cases tx.kind with
      | scDeploy => exact hr _ (runTx_enough hn1 hn _ _ (atRest_world h w))
      | scCall => exact call w _ _
      | scQuery => exact call w _ _
      | transfer => simp
      | validatorReward => simp
  unfold executeTx
  generalize beforeTx L tx s.world.backup = q
  obtain ⟨r, w⟩ := q
  match r with
  | .error (e, true) => simp
  | .error (e, false) => simp
  | .ok gas =>
    have k := kind w gas
    dsimp only
    generalize runKind E n index tx gas { s with world := w } = a at k ⊢
    obtain ⟨a1, a2⟩ := a
    match a1 with
    | none => exact absurd rfl k
    | some (.error e) => simp
    | some (.ok o) =>
      dsimp only
      split <;> simp

/-! ### Setting the state -/

theorem setAccount_iff (C : TokenCodec) (w v : MockWorld) (a : AccountInit) : setAccount w (convertAccount C a) = (true, v) ↔
    Settable a ∧ v = w.put a.address { (convertAccount C a).acc with
      storage := (convertAccount C a).tokens.foldl (fun m p => m.insert p.1 p.2) (convertAccount C a).acc.storage } := by
  unfold setAccount Settable
  rw [show (convertAccount C a).address = a.address from rfl]
  by_cases hl : a.address.length = 32
  · rw [if_neg (by simp [hl])]
    dsimp only
    have hv : ∀ acc : WAcc, acc.code = a.code → (validAccount a.address acc = true ↔
        (a.address.take 8 = List.replicate 8 0 ↔ a.code ≠ [])) := by
      intro acc hc
      unfold validAccount
      simp only [hl, decide_true, Bool.true_and, beq_iff_eq, decide_eq_decide, hc]
    have hv := hv { (convertAccount C a).acc with
      storage := (convertAccount C a).tokens.foldl (fun m p => m.insert p.1 p.2) (convertAccount C a).acc.storage } rfl
    split
    · rename_i h
      constructor
      · intro he; cases he; exact ⟨⟨hl, hv.mp h⟩, rfl⟩
      · rintro ⟨-, rfl⟩; rfl
    · rename_i h
      constructor
      · intro he; cases he
      · rintro ⟨⟨-, h'⟩, -⟩; exact absurd (hv.mpr h') h
  · rw [if_pos hl]
    constructor
    · intro h; cases h
    · rintro ⟨⟨h, -⟩, -⟩; exact absurd h hl

theorem setAccounts_iff (C : TokenCodec) : ∀ (l : List AccountInit) (w v : MockWorld), setAccounts w (l.map (convertAccount C)) = (true, v) ↔
    (∀ a ∈ l, Settable a) ∧ v = l.foldl (fun w a => let d := convertAccount C a
      w.put a.address { d.acc with storage := d.tokens.foldl (fun m p => m.insert p.1 p.2) d.acc.storage }) w
  | [], w, v => by
    simp only [List.map_nil, setAccounts, List.not_mem_nil, false_implies, implies_true, true_and, List.foldl_nil, Prod.mk.injEq, eq_comm]
  | a :: l, w, v => by
    have h1 := fun v => setAccount_iff C w v a
    simp only [List.map_cons, setAccounts, List.mem_cons, forall_eq_or_imp, List.foldl_cons]
    generalize setAccount w (convertAccount C a) = q at h1
    obtain ⟨b, u⟩ := q
    cases b with
    | true =>
      obtain ⟨h3, rfl⟩ := (h1 u).mp rfl
      dsimp only
      rw [setAccounts_iff C l _ v]
      exact ⟨fun h => ⟨⟨h3, h.1⟩, h.2⟩, fun h => ⟨h.1.2, h.2⟩⟩
    | false =>
      constructor
      · intro h; cases h
      · rintro ⟨⟨h2, -⟩, -⟩
        cases (h1 _).mpr ⟨h2, rfl⟩

theorem setWorld_iff (C : TokenCodec) (x : SetState) (w v : MockWorld) : setWorld C x w = (true, v) ↔
    (∀ a ∈ x.accounts, Settable a) ∧ (∀ m ∈ x.addressMocks, m.address.take 8 = List.replicate 8 0) ∧ v = worldSet C x w := by
  have h1 := setAccounts_iff C x.accounts w
  unfold setWorld
  generalize setAccounts w (x.accounts.map (convertAccount C)) = q at h1
  obtain ⟨b, u⟩ := q
  have hm : x.addressMocks.all (fun m => contractForm m.address) = true ↔ ∀ m ∈ x.addressMocks, m.address.take 8 = List.replicate 8 0 := by
    simp only [List.all_eq_true, contractForm, decide_eq_true_eq]
  cases b with
  | true =>
    obtain ⟨h2, h3⟩ := (h1 u).mp rfl
    dsimp only
    split
    · rename_i h
      have e : worldSet C x w =
          { u with previous := x.previous, current := x.current, blockhashes := x.blockhashes, addressMocks := u.addressMocks ++ x.addressMocks } := by
        rw [h3]; rfl
      rw [e]
      constructor
      · intro he; cases he; exact ⟨h2, hm.mp h, rfl⟩
      · rintro ⟨-, -, rfl⟩; rfl
    · rename_i h
      constructor
      · intro he; cases he
      · rintro ⟨-, h', -⟩; exact absurd (hm.mpr h') h
  | false =>
    constructor
    · intro h; cases h
    · rintro ⟨h2, -, -⟩
      cases (h1 _).mpr ⟨h2, rfl⟩

/-! ### Steps -/

variable {env : GasSchedule → Env MockWorld A} {n : Nat} {C : TokenCodec} {load : GasKind → Option GasSchedule}

/-- an executor with a schedule, whose host is idle -/
structure Ready (env : GasSchedule → Env MockWorld A) (g : GasSchedule) (x : Runner A) : Prop where
  loaded : x.loaded = true
  sched : x.st.met.sched = g
  idle : Idle (env g) x.st

/-- the model did not give up -/
def Sound (v : Verdict) : Prop := v ≠ .unknown

theorem sound_passed : Sound .passed := by simp [Sound]

theorem enter_loaded {x : Runner A} (h : x.loaded = true) (checkGas : Bool) (gas : GasKind) :
    enterScenario load checkGas gas x = (true, { x with checkGas := checkGas }) := by
  unfold enterScenario
  rw [if_pos h]

theorem Ready.checks {g : GasSchedule} {x : Runner A} (h : Ready env g x) (b : Bool) : Ready env g { x with checkGas := b } :=
  ⟨h.loaded, h.sched, h.idle⟩

theorem txStep_ready (hw : ∀ g, (env g).useWarm = false) {g : GasSchedule} (t : TxStep) {x : Runner A} (h : Ready env g x)
    (hs : Sound (runTxStep env L n t x).1) : Ready env g (runTxStep env L n t x).2 := by
  unfold runTxStep at hs ⊢
  have k := executeTx_idle (L := L) (hw g) n t.id t.tx h.idle
  rw [h.sched] at hs ⊢
  generalize executeTx (env g) L n t.id t.tx x.st = q at hs k ⊢
  obtain ⟨r, u⟩ := q
  dsimp only at hs k ⊢
  have key : r ≠ none → Ready env g { x with st := u } := by
    intro h1
    obtain ⟨k1, k2⟩ := k h1
    exact ⟨h.loaded, k2.trans h.sched, k1⟩
  match r with
  | none => exact absurd rfl hs
  | some (.error e) => exact key (by simp)
  | some (.ok o) =>
    have := key (by simp)
    dsimp only
    split
    · exact this
    · split
      · exact this
      · exact this

mutual
theorem step_ready (hw : ∀ g, (env g).useWarm = false) {g : GasSchedule} : ∀ (s : Step) {x : Runner A}, Ready env g x →
    Sound (runStep env L n C load s x).1 → Ready env g (runStep env L n C load s x).2
  | .external b k steps, x, h, hs => by
    simp only [runStep, enter_loaded h.loaded] at hs ⊢
    exact steps_ready hw steps (h.checks b) hs
  | .unreadable, x, h, _ => by simpa only [runStep] using h
  | .setState s, x, h, _ => by
    simp only [runStep]
    exact ⟨h.loaded, h.sched, idle_world h.idle _⟩
  | .checkState c, x, h, _ => by simpa only [runStep] using h
  | .tx t, x, h, hs => by
    simp only [runStep] at hs ⊢
    exact txStep_ready hw t h hs
  | .dump, x, h, _ => by simpa only [runStep] using h
theorem steps_ready (hw : ∀ g, (env g).useWarm = false) {g : GasSchedule} : ∀ (l : List Step) {x : Runner A}, Ready env g x →
    Sound (runSteps env L n C load l x).1 → Ready env g (runSteps env L n C load l x).2
  | [], x, h, _ => by simpa only [runSteps] using h
  | s :: rest, x, h, hs => by
    have k := step_ready hw s h
    simp only [runSteps] at hs ⊢
    generalize runStep env L n C load s x = q at k hs ⊢
    obtain ⟨v, y⟩ := q
    cases v with
    | passed => exact steps_ready hw rest (k sound_passed) hs
    | failed f => exact k hs
    | unknown => exact k hs
end

/-! ### A scenario passes exactly if its steps do -/

theorem passes_cons {b : Bool} {s : Step} {rest : List Step} {t u : St MockWorld A} : Passes E L n C b (s :: rest) t u ↔
    ∃ v, Passes E L n C b [s] t v ∧ Passes E L n C b rest v u := by
  constructor
  · intro h
    cases h with
    | external h1 h2 => exact ⟨_, .external h1 (.done _ _), h2⟩
    | setState h1 h2 h3 => exact ⟨_, .setState h1 h2 (.done _ _), h3⟩
    | checkState h1 h2 => exact ⟨_, .checkState h1 (.done _ _), h2⟩
    | tx h1 h2 h3 => exact ⟨_, .tx h1 h2 (.done _ _), h3⟩
    | dump h1 => exact ⟨_, .dump (.done _ _), h1⟩
  · rintro ⟨v, h, h'⟩
    cases h with
    | external h1 h2 => cases h2; exact .external h1 h'
    | setState h1 h2 h3 => cases h3; exact .setState h1 h2 h'
    | checkState h1 h2 => cases h2; exact .checkState h1 h'
    | tx h1 h2 h3 => cases h3; exact .tx h1 h2 h'
    | dump h1 => cases h1; exact .dump h'

theorem txStep_iff {g : GasSchedule} (t : TxStep) {x : Runner A} (h : Ready env g x) (y : Runner A) :
    runTxStep env L n t x = (.passed, y) ↔ ∃ u, Passes (env g) L n C x.checkGas [.tx t] x.st u ∧ y = { x with st := u } := by
  have key : runTxStep env L n t x = (.passed, y) ↔ ∃ o u, executeTx (env g) L n t.id t.tx x.st = (some (.ok o), u) ∧
      (∀ c, t.expect = some c → ResultAs x.checkGas c o) ∧ y = { x with st := u } := by
    unfold runTxStep
    rw [h.sched]
    generalize executeTx (env g) L n t.id t.tx x.st = q
    obtain ⟨r, u⟩ := q
    match r with
    | none =>
      constructor
      · intro he; cases he
      · rintro ⟨o, u', he, -⟩; cases he
    | some (.error e) =>
      constructor
      · intro he; cases he
      · rintro ⟨o, u', he, -⟩; cases he
    | some (.ok o) =>
      dsimp only
      cases ht : t.expect with
      | none =>
        constructor
        · intro he; cases he; exact ⟨o, u, rfl, (fun c hc => by cases hc), rfl⟩
        · rintro ⟨o', u', he, -, rfl⟩; cases he; rfl
      | some c =>
        dsimp only
        by_cases hc : checkResult x.checkGas c o = true
        · rw [if_pos hc]
          constructor
          · intro he; cases he; exact ⟨o, u, rfl, (fun c' hc' => by cases hc'; exact (c54 _ _ _).mp hc), rfl⟩
          · rintro ⟨o', u', he, -, rfl⟩; cases he; rfl
        · rw [if_neg hc]
          constructor
          · intro he; cases he
          · rintro ⟨o', u', he, h2, -⟩; cases he; exact absurd ((c54 _ _ _).mpr (h2 c rfl)) hc
  rw [key]
  constructor
  · rintro ⟨o, u, h1, h2, h3⟩
    exact ⟨u, .tx h1 h2 (.done _ _), h3⟩
  · rintro ⟨u, h1, h2⟩
    cases h1 with
    | tx k1 k2 k3 => cases k3; exact ⟨_, _, k1, k2, h2⟩

mutual
theorem step_iff (hw : ∀ g, (env g).useWarm = false) {g : GasSchedule} : ∀ (s : Step) {x : Runner A}, Ready env g x →
    EvenStep x.checkGas s → ∀ y, runStep env L n C load s x = (.passed, y) ↔
      ∃ u, Passes (env g) L n C x.checkGas [s] x.st u ∧ y = { x with st := u }
  | .external b k steps, x, h, he, y => by
    obtain ⟨h1, h2⟩ : b = x.checkGas ∧ EvenSteps x.checkGas steps := he
    subst h1
    simp only [runStep, enter_loaded h.loaded]
    rw [steps_iff hw steps h h2 y]
    constructor
    · rintro ⟨u, k1, k2⟩
      exact ⟨u, .external k1 (.done _ _), k2⟩
    · rintro ⟨u, k1, k2⟩
      cases k1 with
      | external k3 k4 => cases k4; exact ⟨_, k3, k2⟩
  | .unreadable, x, h, _, y => by
    simp only [runStep]
    constructor
    · intro h; cases h
    · rintro ⟨u, k1, -⟩; cases k1
  | .setState s, x, h, _, y => by
    have k := setWorld_iff C s x.st.world
    simp only [runStep]
    generalize setWorld C s x.st.world = q at k
    obtain ⟨b, w⟩ := q
    cases b with
    | true =>
      obtain ⟨k1, k2, rfl⟩ := (k w).mp rfl
      constructor
      · intro h; cases h; exact ⟨_, .setState k1 k2 (.done _ _), rfl⟩
      · rintro ⟨u, k3, rfl⟩
        cases k3 with
        | setState _ _ k4 => cases k4; rfl
    | false =>
      constructor
      · intro h; cases h
      · rintro ⟨u, k3, rfl⟩
        cases k3 with
        | setState k1 k2 k4 => cases (k _).mpr ⟨k1, k2, rfl⟩
  | .checkState c, x, h, _, y => by
    simp only [runStep]
    by_cases hc : checkState C c x.st.world = true
    · rw [if_pos hc]
      constructor
      · intro h; cases h; exact ⟨_, .checkState ((c53_checked _ _ _).mp hc) (.done _ _), rfl⟩
      · rintro ⟨u, k3, rfl⟩
        cases k3 with
        | checkState _ k4 => cases k4; rfl
    · rw [if_neg hc]
      constructor
      · intro h; cases h
      · rintro ⟨u, k3, rfl⟩
        cases k3 with
        | checkState k1 _ => exact absurd ((c53_checked _ _ _).mpr k1) hc
  | .tx t, x, h, _, y => by
    simp only [runStep]
    exact txStep_iff t h y
  | .dump, x, h, _, y => by
    simp only [runStep]
    constructor
    · intro h; cases h; exact ⟨_, .dump (.done _ _), rfl⟩
    · rintro ⟨u, k3, rfl⟩
      cases k3 with
      | dump k4 => cases k4; rfl
theorem steps_iff (hw : ∀ g, (env g).useWarm = false) {g : GasSchedule} : ∀ (l : List Step) {x : Runner A}, Ready env g x →
    EvenSteps x.checkGas l → ∀ y, runSteps env L n C load l x = (.passed, y) ↔
      ∃ u, Passes (env g) L n C x.checkGas l x.st u ∧ y = { x with st := u }
  | [], x, h, _, y => by
    simp only [runSteps]
    constructor
    · intro h; cases h; exact ⟨_, .done _ _, rfl⟩
    · rintro ⟨u, k, rfl⟩; cases k; rfl
  | s :: rest, x, h, he, y => by
    obtain ⟨h1, h2⟩ : EvenStep x.checkGas s ∧ EvenSteps x.checkGas rest := he
    have k := step_iff hw s h h1
    have k' := step_ready (L := L) (n := n) (C := C) (load := load) hw s h
    have pc := fun u => passes_cons (E := env g) (L := L) (n := n) (C := C) (b := x.checkGas) (s := s) (rest := rest) (t := x.st) (u := u)
    simp only [runSteps, pc]
    generalize runStep env L n C load s x = q at k k'
    obtain ⟨v, z⟩ := q
    cases v with
    | passed =>
      dsimp only
      obtain ⟨u, k1, rfl⟩ := (k z).mp rfl
      have := steps_iff hw rest (k' sound_passed) h2 y
      rw [this]
      constructor
      · rintro ⟨t, k2, k3⟩
        exact ⟨t, ⟨u, k1, k2⟩, k3⟩
      · rintro ⟨t, ⟨u', k2, k3⟩, k4⟩
        have e := (k { x with st := u' }).mpr ⟨u', k2, rfl⟩
        have e' : u = u' := congrArg (fun p : Verdict × Runner A => p.2.st) e
        subst e'
        exact ⟨t, k3, k4⟩
    | failed f =>
      constructor
      · intro h; cases h
      · rintro ⟨t, ⟨u, k2, k3⟩, k4⟩
        cases (k { x with st := u }).mpr ⟨u, k2, rfl⟩
    | unknown =>
      constructor
      · intro h; cases h
      · rintro ⟨t, ⟨u, k2, k3⟩, k4⟩
        cases (k { x with st := u }).mpr ⟨u, k2, rfl⟩
end

/-- C57: on an executor that was just made a scenario passes exactly if its gas schedule can be loaded and its steps pass one after
the other under that schedule, with gas checked as the scenario says; and it ends in the state after the last step. Missing for
the full property: executors that ran a scenario before (`c58_schedule_neg`), and scenarios that include others which say
otherwise about checking gas (`c57_external_neg`). -/
theorem c57_partial (hw : ∀ g, (env g).useWarm = false) (sc : Scenario) (he : EvenSteps sc.checkGas sc.steps) (w : MockWorld)
    (g0 : GasSchedule) (y : Runner A) : runScenario env L n C load sc (freshRunner w g0) = (.passed, y) ↔
      ∃ g u, load sc.gas = some g ∧ Passes (env g) L n C sc.checkGas sc.steps (freshHost w g) u ∧
        y = { st := u, checkGas := sc.checkGas, loaded := true } := by
  unfold runScenario enterScenario
  rw [if_neg (by simp [freshRunner])]
  cases hl : load sc.gas with
  | none =>
    constructor
    · intro h; cases h
    · rintro ⟨g, u, h, -⟩; cases h
  | some g =>
    dsimp only
    have hr : Ready env g { (freshRunner w g0 : Runner A) with checkGas := sc.checkGas, loaded := true, st := freshHost w g } :=
      ⟨rfl, rfl, idle_fresh w g⟩
    refine (steps_iff (load := load) hw sc.steps hr he y).trans ?_
    constructor
    · rintro ⟨u, k1, k2⟩; exact ⟨g, u, rfl, k1, k2⟩
    · rintro ⟨g', u, h, k1, k2⟩; cases h; exact ⟨u, k1, k2⟩

/-! ### What a reset leaves of a world -/

/-- the settings of a world that `Clear` keeps -/
def settings (w : MockWorld) : UInt32 × Bytes × Option Err := (w.selfShard, w.stateRootHash, w.err)

theorem clear_same {w v : MockWorld} (h : settings w = settings v) : w.clear = v.clear := by
  obtain ⟨h1, h2, h3⟩ : w.selfShard = v.selfShard ∧ w.stateRootHash = v.stateRootHash ∧ w.err = v.err :=
    ⟨congrArg Prod.fst h, congrArg (·.2.1) h, congrArg (·.2.2) h⟩
  unfold MockWorld.clear
  rw [h1, h2, h3]

theorem stores_settings {w v : MockWorld} (h : Stores w v) : settings v = settings w := by
  induction h with
  | nothing => rfl
  | value v a key value _ ih =>
    rw [← ih]
    unfold MockWorld.saveKeyValue
    split <;> rfl

theorem revert_settings (w : MockWorld) (i : Int) : settings (w.revert i).2 = settings w := by
  unfold MockWorld.revert
  repeat' split
  all_goals rfl

theorem reached_settings (hE : E.hook = MockWorld.hook L) (hL : StoringBuiltins L) {w v : MockWorld} (h : Reached E w v) :
    settings v = settings w := by
  induction h with
  | start => rfl
  | builtin v i _ ih =>
    rw [hE, ← ih]
    show settings (match v.err with | some e => ((Except.error e : Except Err BuiltinOutput), v) | none => L.builtin v i).2 = _
    split
    · rfl
    · exact stores_settings (hL v i)
  | revert v n _ ih => rw [hE, ← ih]; exact revert_settings v n
  | saveCompiled v x c _ ih => rw [hE, ← ih]; rfl

theorem beforeTx_settings (hL : StoringBuiltins L) (tx : ScTx) (w : MockWorld) : settings (beforeTx L tx w).2 = settings w := by
  have h1 : settings (w.updateBefore tx.sender tx.gasLimit tx.gasPrice).2 = settings w := by
    unfold MockWorld.updateBefore
    split
    · rfl
    · dsimp only
      split <;> rfl
  unfold beforeTx
  split
  · generalize w.updateBefore tx.sender tx.gasLimit tx.gasPrice = q at h1
    obtain ⟨b, v⟩ := q
    cases b with
    | false => exact h1
    | true =>
      dsimp only
      cases tx.esdt with
      | none => exact h1
      | some e =>
        obtain ⟨i, hi⟩ := directEsdt_world (L := L) v tx e
        have h2 : settings (directEsdt L v tx e).2 = settings w := by rw [hi]; exact (stores_settings (hL v i)).trans h1
        dsimp only
        generalize directEsdt L v tx e = q at h2
        obtain ⟨r, u⟩ := q
        cases r <;> exact h2
  · rfl

theorem updateAccounts_settings (es : List (Addr × OutAcc)) (w : MockWorld) :
    settings (es.foldl (fun w p => w.updateAccount L p.1 p.2) w) = settings w := by
  induction es generalizing w with
  | nil => rfl
  | cons p rest ih => rw [List.foldl_cons, ih]; rfl

theorem afterTx_settings (tx : ScTx) (o : VMOutput) (w : MockWorld) : settings (afterTx L tx o w).2 = settings w := by
  unfold afterTx
  refine (updateAccounts_settings _ _).trans ?_
  split
  · unfold MockWorld.updateBalanceWithDelta
    split <;> rfl
  · rfl

theorem runKind_settings (hE : E.hook = MockWorld.hook L) (hL : StoringBuiltins L) (n : Nat) (index : Bytes) (tx : ScTx) (gas : UInt64)
    {s : St MockWorld A} (hr : AtRest E s) (h : (runKind E n index tx gas s).1 ≠ none) :
    settings (runKind E n index tx gas s).2.world = settings s.world := by
  by_cases hk : tx.kind = .validatorReward
  · unfold runKind
    rw [hk]
    split
    · rfl
    · dsimp only
      unfold rewardOutput
      split <;> rfl
  · exact reached_settings hE hL (runKind_reached n index tx gas hr hk h)

theorem executeTx_settings (hE : E.hook = MockWorld.hook L) (hL : StoringBuiltins L) (n : Nat) (index : Bytes) (tx : ScTx)
    {s : St MockWorld A} (hr : AtRest E s) (h : (executeTx E L n index tx s).1 ≠ none) :
    settings (executeTx E L n index tx s).2.world = settings s.world := by
  unfold executeTx at h ⊢
  have h1 := beforeTx_settings hL tx s.world.backup
  generalize beforeTx L tx s.world.backup = q at h h1 ⊢
  obtain ⟨r, w⟩ := q
  have h1 : settings w = settings s.world := h1
  have k := fun gas => runKind_settings hE hL n index tx gas (atRest_world hr w)
  match r with
  | .error (e, true) => exact (revert_settings w 0).trans h1
  | .error (e, false) => exact h1
  | .ok gas =>
    have k := k gas
    dsimp only at h ⊢
    generalize runKind E n index tx gas { s with world := w } = a at k h ⊢
    obtain ⟨a1, a2⟩ := a
    dsimp only at k h ⊢
    match a1 with
    | none => exact absurd rfl h
    | some (.error e) => exact (revert_settings a2.world 0).trans ((k (by simp)).trans h1)
    | some (.ok o) =>
      have k := (k (by simp)).trans h1
      dsimp only
      split
      · exact (afterTx_settings tx o a2.world).trans k
      · exact (revert_settings a2.world 0).trans k

theorem setAccounts_settings (l : List SetAccount) (w : MockWorld) : settings (setAccounts w l).2 = settings w := by
  induction l generalizing w with
  | nil => rfl
  | cons x rest ih =>
    have h : settings (setAccount w x).2 = settings w := by
      unfold setAccount
      split
      · rfl
      · dsimp only
        split <;> rfl
    unfold setAccounts
    generalize setAccount w x = q at h
    obtain ⟨b, v⟩ := q
    cases b with
    | true => exact (ih v).trans h
    | false => exact h

theorem setWorld_settings (x : SetState) (w : MockWorld) : settings (setWorld C x w).2 = settings w := by
  have h := setAccounts_settings (x.accounts.map (convertAccount C)) w
  unfold setWorld
  generalize setAccounts w (x.accounts.map (convertAccount C)) = q at h
  obtain ⟨b, v⟩ := q
  cases b with
  | false => exact h
  | true =>
    dsimp only
    split <;> exact h

/-! ### Two executors -/

/-- two executors with the same schedule and the same checks over the same world -/
structure Twins (env : GasSchedule → Env MockWorld A) (g : GasSchedule) (x y : Runner A) : Prop where
  left : Ready env g x
  right : Ready env g y
  world : x.st.world = y.st.world
  checkGas : x.checkGas = y.checkGas

/-- what they do: the same, and to the same effect -/
structure TwinResults (x y : Runner A) (p q : Verdict × Runner A) : Prop where
  verdict : p.1 = q.1
  world : p.2.st.world = q.2.st.world
  checkGas : p.2.checkGas = q.2.checkGas
  size : x.st.rt.codeSize = y.st.rt.codeSize → p.2.st.rt.codeSize = q.2.st.rt.codeSize

theorem txStep_twins [∀ g, BlindApi (env g)] (hw : ∀ g, (env g).useWarm = false) {g : GasSchedule} (t : TxStep) {x y : Runner A} (h : Twins env g x y)
    (hp : x.st.rt.codeSize = y.st.rt.codeSize ∨ PlainTx t.tx) :
    TwinResults x y (runTxStep env L n t x) (runTxStep env L n t y) := by
  obtain ⟨k1, k2, k3⟩ := executeTx_alike (L := L) (hw g) n t.id t.tx
    ⟨h.left.idle, h.right.idle, h.world, h.left.sched.trans h.right.sched.symm⟩ hp
  unfold runTxStep
  rw [h.left.sched, h.right.sched]
  generalize executeTx (env g) L n t.id t.tx x.st = a at k1 k2 k3 ⊢
  generalize executeTx (env g) L n t.id t.tx y.st = b at k1 k2 k3 ⊢
  obtain ⟨a1, a2⟩ := a
  obtain ⟨b1, b2⟩ := b
  dsimp only at k1 k2 k3 ⊢
  subst k1
  match a1 with
  | none => exact ⟨rfl, k2, h.checkGas, k3⟩
  | some (.error e) => exact ⟨rfl, k2, h.checkGas, k3⟩
  | some (.ok o) =>
    dsimp only
    cases t.expect with
    | none => exact ⟨rfl, k2, h.checkGas, k3⟩
    | some c =>
      dsimp only
      rw [h.checkGas]
      split
      · exact ⟨rfl, k2, rfl, k3⟩
      · exact ⟨rfl, k2, rfl, k3⟩

mutual
theorem step_twins [∀ g, BlindApi (env g)] (hw : ∀ g, (env g).useWarm = false) {g : GasSchedule} : ∀ (s : Step) {x y : Runner A}, Twins env g x y →
    (x.st.rt.codeSize = y.st.rt.codeSize ∨ PlainStep s) → TwinResults x y (runStep env L n C load s x) (runStep env L n C load s y)
  | .external b k steps, x, y, h, hp => by
    simp only [runStep, enter_loaded h.left.loaded, enter_loaded h.right.loaded]
    have := steps_twins hw steps (x := { x with checkGas := b }) (y := { y with checkGas := b })
      ⟨h.left.checks b, h.right.checks b, h.world, rfl⟩ hp
    exact ⟨this.verdict, this.world, this.checkGas, this.size⟩
  | .unreadable, x, y, h, _ => by
    simp only [runStep]
    exact ⟨rfl, h.world, h.checkGas, id⟩
  | .setState s, x, y, h, _ => by
    simp only [runStep]
    rw [h.world]
    exact ⟨rfl, rfl, h.checkGas, id⟩
  | .checkState c, x, y, h, _ => by
    simp only [runStep]
    rw [h.world]
    exact ⟨rfl, h.world, h.checkGas, id⟩
  | .tx t, x, y, h, hp => by
    simp only [runStep]
    exact txStep_twins hw t h hp
  | .dump, x, y, h, _ => by
    simp only [runStep]
    exact ⟨rfl, h.world, h.checkGas, id⟩
theorem steps_twins [∀ g, BlindApi (env g)] (hw : ∀ g, (env g).useWarm = false) {g : GasSchedule} : ∀ (l : List Step) {x y : Runner A}, Twins env g x y →
    (x.st.rt.codeSize = y.st.rt.codeSize ∨ PlainSteps l) → TwinResults x y (runSteps env L n C load l x) (runSteps env L n C load l y)
  | [], x, y, h, _ => by
    simp only [runSteps]
    exact ⟨rfl, h.world, h.checkGas, id⟩
  | s :: rest, x, y, h, hp => by
    have k := step_twins hw s h (hp.imp id (·.1))
    have kx := step_ready (L := L) (n := n) (C := C) (load := load) hw s h.left
    have ky := step_ready (L := L) (n := n) (C := C) (load := load) hw s h.right
    simp only [runSteps]
    generalize runStep env L n C load s x = a at k kx ⊢
    generalize runStep env L n C load s y = b at k ky ⊢
    obtain ⟨v, x'⟩ := a
    obtain ⟨v', y'⟩ := b
    obtain ⟨k1, k2, k3, k4⟩ := k
    dsimp only at k1 k2 k3 k4 kx ky
    subst k1
    cases v with
    | passed =>
      have := steps_twins hw rest (x := x') (y := y') ⟨kx sound_passed, ky sound_passed, k2, k3⟩ (hp.imp k4 (·.2))
      exact ⟨this.verdict, this.world, this.checkGas, fun h => this.size (k4 h)⟩
    | failed f => exact ⟨rfl, k2, k3, k4⟩
    | unknown => exact ⟨rfl, k2, k3, k4⟩
end

mutual
theorem step_settings (hw : ∀ g, (env g).useWarm = false) (hE : ∀ g, (env g).hook = MockWorld.hook L) (hL : StoringBuiltins L)
    {g : GasSchedule} : ∀ (s : Step) {x : Runner A}, Ready env g x → Sound (runStep env L n C load s x).1 →
    settings (runStep env L n C load s x).2.st.world = settings x.st.world
  | .external b k steps, x, h, hs => by
    simp only [runStep, enter_loaded h.loaded] at hs ⊢
    exact steps_settings hw hE hL steps (h.checks b) hs
  | .unreadable, x, h, _ => by simp only [runStep]
  | .setState s, x, h, _ => by
    simp only [runStep]
    exact setWorld_settings s x.st.world
  | .checkState c, x, h, _ => by simp only [runStep]
  | .tx t, x, h, hs => by
    simp only [runStep] at hs ⊢
    unfold runTxStep at hs ⊢
    rw [h.sched] at hs ⊢
    have k := executeTx_settings (hE g) hL n t.id t.tx h.idle.toAtRest
    generalize executeTx (env g) L n t.id t.tx x.st = q at hs k ⊢
    obtain ⟨r, u⟩ := q
    match r with
    | none => exact absurd rfl hs
    | some (.error e) => exact k (by simp)
    | some (.ok o) =>
      dsimp only
      split
      · exact k (by simp)
      · split <;> exact k (by simp)
  | .dump, x, h, _ => by simp only [runStep]
theorem steps_settings (hw : ∀ g, (env g).useWarm = false) (hE : ∀ g, (env g).hook = MockWorld.hook L) (hL : StoringBuiltins L)
    {g : GasSchedule} : ∀ (l : List Step) {x : Runner A}, Ready env g x → Sound (runSteps env L n C load l x).1 →
    settings (runSteps env L n C load l x).2.st.world = settings x.st.world
  | [], x, h, _ => by simp only [runSteps]
  | s :: rest, x, h, hs => by
    have k := step_settings hw hE hL s h
    have kx := step_ready (L := L) (n := n) (C := C) (load := load) hw s h
    simp only [runSteps] at hs ⊢
    generalize runStep env L n C load s x = a at k kx hs ⊢
    obtain ⟨v, x'⟩ := a
    cases v with
    | passed => exact (steps_settings hw hE hL rest (kx sound_passed) hs).trans (k sound_passed)
    | failed f => exact k hs
    | unknown => exact k hs
end

mutual
theorem step_known (hw : ∀ g, (env g).useWarm = false) (h1 : 1 ≤ n) (hn : ∀ g, (env g).maxInstances ≤ n) {g : GasSchedule} :
    ∀ (s : Step) {x : Runner A}, Ready env g x → (runStep env L n C load s x).1 ≠ .unknown
  | .external b k steps, x, h => by
    simp only [runStep, enter_loaded h.loaded]
    exact steps_known hw h1 hn steps (h.checks b)
  | .unreadable, x, h => by simp [runStep]
  | .setState s, x, h => by
    simp only [runStep]
    split <;> simp
  | .checkState c, x, h => by
    simp only [runStep]
    split <;> simp
  | .tx t, x, h => by
    simp only [runStep, runTxStep]
    rw [h.sched]
    have k := executeTx_enough (L := L) n h1 (hn g) t.id t.tx h.idle.toAtRest
    generalize executeTx (env g) L n t.id t.tx x.st = q at k ⊢
    obtain ⟨r, u⟩ := q
    match r with
    | none => exact absurd rfl k
    | some (.error e) => simp
    | some (.ok o) =>
      dsimp only
      split
      · simp
      · split <;> simp
  | .dump, x, h => by simp [runStep]
theorem steps_known (hw : ∀ g, (env g).useWarm = false) (h1 : 1 ≤ n) (hn : ∀ g, (env g).maxInstances ≤ n) {g : GasSchedule} :
    ∀ (l : List Step) {x : Runner A}, Ready env g x → (runSteps env L n C load l x).1 ≠ .unknown
  | [], x, h => by simp [runSteps]
  | s :: rest, x, h => by
    have k := step_known hw h1 hn s h
    have kx := step_ready (L := L) (n := n) (C := C) (load := load) hw s h
    simp only [runSteps]
    generalize runStep env L n C load s x = a at k kx ⊢
    obtain ⟨v, x'⟩ := a
    cases v with
    | passed => exact steps_known hw h1 hn rest (kx sound_passed)
    | failed f => simp
    | unknown => exact absurd rfl k
end

/-! ### One scenario after the other -/

/-- an executor between scenarios that all ask for the same schedule -/
structure Between (env : GasSchedule → Env MockWorld A) (load : GasKind → Option GasSchedule) (k : GasKind)
    (c : UInt32 × Bytes × Option Err) (x : Runner A) : Prop where
  idle : Idle (env x.st.met.sched) x.st
  sched : x.loaded = true → load k = some x.st.met.sched
  settings : settings x.st.world = c

/-- entering a scenario after a reset: the same with every such executor -/
theorem between_enter (hw : ∀ g, (env g).useWarm = false) {k : GasKind} {c : UInt32 × Bytes × Option Err} {x : Runner A}
    (h : Between env load k c x) (b : Bool) :
    (load k = none ∧ enterScenario load b k x.reset = (false, { x.reset with checkGas := b })) ∨
    ∃ g y, load k = some g ∧ enterScenario load b k x.reset = (true, y) ∧ Ready env g y ∧ y.st.world = x.st.world.clear ∧ y.checkGas = b ∧
      y.st.rt.codeSize = x.st.rt.codeSize := by
  by_cases hl : x.loaded = true
  · exact .inr ⟨x.st.met.sched, _, h.sched hl, enter_loaded (x := x.reset) hl b k, ⟨hl, rfl, idle_world h.idle _⟩, rfl, rfl, rfl⟩
  · have e : enterScenario load b k x.reset = match load k with
        | none => (false, { x.reset with checkGas := b })
        | some g => (true, { st := { x.reset.st with met := { x.reset.st.met with sched := g } }, checkGas := b, loaded := true }) :=
      if_neg hl
    rw [e]
    cases hk : load k with
    | none => exact .inl ⟨rfl, rfl⟩
    | some g => exact .inr ⟨g, _, rfl, rfl, ⟨rfl, rfl, idle_sched (idle_world (idle_env (hw _) h.idle) _) g⟩, rfl, rfl, rfl⟩

theorem scenario_between (hw : ∀ g, (env g).useWarm = false) (hE : ∀ g, (env g).hook = MockWorld.hook L) (hL : StoringBuiltins L)
    (h1 : 1 ≤ n) (hn : ∀ g, (env g).maxInstances ≤ n) {k : GasKind} {c : UInt32 × Bytes × Option Err} {x : Runner A}
    (h : Between env load k c x) (sc : Scenario) (hk : sc.gas = k) :
    Between env load k c (runScenario env L n C load sc x.reset).2 := by
  subst hk
  unfold runScenario
  rcases between_enter hw h sc.checkGas with ⟨e1, e2⟩ | ⟨g, y, e1, e2, e3, e4, -⟩
  · rw [e2]
    exact ⟨idle_world h.idle _, h.sched, h.settings⟩
  · rw [e2]
    dsimp only
    have hs : Sound (runSteps env L n C load sc.steps y).1 := steps_known hw h1 hn sc.steps e3
    have k1 := steps_ready hw sc.steps e3 hs
    have k2 := steps_settings hw hE hL sc.steps e3 hs
    refine ⟨?_, fun _ => ?_, ?_⟩
    · rw [k1.sched]; exact k1.idle
    · rw [k1.sched]; exact e1
    · rw [k2, e4]; exact h.settings

theorem scenario_same [∀ g, BlindApi (env g)] (hw : ∀ g, (env g).useWarm = false) {k : GasKind} {c : UInt32 × Bytes × Option Err} {x y : Runner A}
    (hx : Between env load k c x) (hy : Between env load k c y) (sc : Scenario) (hk : sc.gas = k)
    (hp : x.st.rt.codeSize = y.st.rt.codeSize ∨ PlainSteps sc.steps) :
    (runScenario env L n C load sc x.reset).1 = (runScenario env L n C load sc y.reset).1 ∧
    (runScenario env L n C load sc x.reset).2.st.world = (runScenario env L n C load sc y.reset).2.st.world := by
  subst hk
  have hc := clear_same (hx.settings.trans hy.settings.symm)
  unfold runScenario
  rcases between_enter hw hx sc.checkGas with ⟨e1, e2⟩ | ⟨g, x', e1, e2, e3, e4, e5, e6⟩
  · rcases between_enter hw hy sc.checkGas with ⟨f1, f2⟩ | ⟨g, y', f1, -⟩
    · rw [e2, f2]
      exact ⟨rfl, hc⟩
    · rw [e1] at f1; cases f1
  · rcases between_enter hw hy sc.checkGas with ⟨f1, f2⟩ | ⟨g', y', f1, f2, f3, f4, f5, f6⟩
    · rw [e1] at f1; cases f1
    · rw [e1] at f1
      cases f1
      rw [e2, f2]
      have := steps_twins (L := L) (n := n) (C := C) (load := load) hw sc.steps (x := x') (y := y')
        ⟨e3, f3, e4.trans (hc.trans f4.symm), e5.trans f5.symm⟩ (by rw [e6, f6]; exact hp)
      exact ⟨this.verdict, this.world⟩

theorem scenarios_at [∀ g, BlindApi (env g)] (hw : ∀ g, (env g).useWarm = false) (hE : ∀ g, (env g).hook = MockWorld.hook L) (hL : StoringBuiltins L)
    (h1 : 1 ≤ n) (hn : ∀ g, (env g).maxInstances ≤ n) {k : GasKind} {c : UInt32 × Bytes × Option Err} {y : Runner A}
    (hy : Between env load k c y) : ∀ (scs : List Scenario) (x : Runner A), Between env load k c x → (∀ sc ∈ scs, sc.gas = k) →
    ∀ (i : Nat) (sc : Scenario), scs[i]? = some sc → PlainSteps sc.steps →
    (runScenarios env L n C load scs x).1[i]? = some (runScenario env L n C load sc y.reset).1
  | [], x, _, _, i, sc, hi, _ => by simp at hi
  | s :: rest, x, hx, hk, 0, sc, hi, hp => by
    simp only [List.getElem?_cons_zero, Option.some.injEq] at hi
    subst hi
    simp only [runScenarios, List.getElem?_cons_zero]
    rw [(scenario_same hw hx hy s (hk s (List.mem_cons_self ..)) (.inr hp)).1]
  | s :: rest, x, hx, hk, i + 1, sc, hi, hp => by
    simp only [List.getElem?_cons_succ] at hi
    have hx' := scenario_between (L := L) (n := n) (C := C) hw hE hL h1 hn hx s (hk s (List.mem_cons_self ..))
    simp only [runScenarios, List.getElem?_cons_succ]
    exact scenarios_at hw hE hL h1 hn hy rest _ hx' (fun s' h' => hk s' (List.mem_cons_of_mem _ h')) i sc hi hp

/-- C58: when the scenarios of a directory are run by one executor, each gets the verdict that it gets when it is run alone by an
executor that was just made. Missing for the full property: scenarios with different gas schedules (`c58_schedule_neg`), and
deployments and upgrades, which depend on the code that was loaded last (`c58_deploy_neg`). -/
theorem c58_partial [∀ g, BlindApi (env g)] (hw : ∀ g, (env g).useWarm = false) (hE : ∀ g, (env g).hook = MockWorld.hook L) (hL : StoringBuiltins L)
    (h1 : 1 ≤ n) (hn : ∀ g, (env g).maxInstances ≤ n) (w : MockWorld) (g : GasSchedule) (k : GasKind) (scs : List Scenario)
    (hk : ∀ sc ∈ scs, sc.gas = k) (i : Nat) (sc : Scenario) (hi : scs[i]? = some sc) (hp : PlainSteps sc.steps) :
    (runScenarios env L n C load scs (freshRunner w g)).1[i]? = some (runScenario env L n C load sc (freshRunner w g).reset).1 := by
  have hx : Between env load k (settings w) (freshRunner w g) := ⟨idle_fresh w g, (fun h => by cases h), rfl⟩
  exact scenarios_at hw hE hL h1 hn hx scs _ hx hk i sc hi hp

/-! ### Examples -/

section
open Fixture

/-- an environment for scenarios, the same for all schedules -/
def scEnv : GasSchedule → Env MockWorld EeiCall := fun _ => payMock'
/-- two schedules: all prices are 1, or loading code is dearer -/
def dearSched : GasSchedule := { sched with getCode := 11 }
def scLoad : GasKind → Option GasSchedule
  | .dummy => some sched
  | .v1 => some dearSched
  | _ => none

def scSet : SetState :=
  { accounts := [{ address := user 1, balance := 1000 }, { address := addr 100, balance := 50, code := [1] },
                 { address := addr 101, balance := 5, code := [2] }] }
/-- a user pays a contract, which pays another; so much gas is left -/
def scTx (gas : UInt64) : TxStep := { id := [48], tx := payStep f, expect := some { status := { value := 0 }, gas := { value := gas } } }
def scCheck : CheckAccounts :=
  { accounts := [{ address := user 1, nonce := { value := 1 }, balance := { value := 480 } },
                 { address := addr 100, balance := { value := 63 }, code := { value := [1] } },
                 { address := addr 101, balance := { value := 12 }, code := { value := [2] } }] }
def scen (kind : GasKind) (gas : UInt64) : Scenario := { gas := kind, steps := [.setState scSet, .tx (scTx gas), .checkState scCheck, .dump] }

def scFresh : Runner EeiCall := freshRunner {} sched
def verdictOf (sc : Scenario) (x : Runner EeiCall) : Verdict := (runScenario scEnv stillLib 20 Toy.codec scLoad sc x).1
def verdictsOf (l : List Scenario) : List Verdict := (runScenarios scEnv stillLib 20 Toy.codec scLoad l scFresh).1


instance scEnv_blind (g : GasSchedule) : BlindApi (scEnv g) := inferInstanceAs (BlindApi ((mockEnv stillLib payMock).without [.create]))
theorem scEnv_cold : ∀ g, (scEnv g).useWarm = false := fun _ => rfl
theorem scEnv_hook : ∀ g, (scEnv g).hook = MockWorld.hook stillLib := fun _ => rfl
theorem stillLib_storing : StoringBuiltins stillLib := fun _ _ => .nothing

/-- C57: a scenario that meets the hypotheses passes, and with another expectation it fails -/
example : EvenSteps (scen .dummy 497).checkGas (scen .dummy 497).steps := ⟨trivial, trivial, trivial, trivial, trivial⟩
theorem scen_passes : verdictOf (scen .dummy 497) scFresh = .passed := by decide +kernel
example : verdictOf (scen .dummy 496) scFresh = .failed .result := by decide +kernel

/-- C58: three scenarios that meet the hypotheses, one of which fails -/
example : (∀ g, (scEnv g).maxInstances ≤ 20) ∧ PlainSteps (scen .dummy 497).steps :=
  ⟨(fun _ => (by decide : (10 : Nat) ≤ 20)), trivial, ⟨by decide, by decide⟩, trivial, trivial, trivial⟩
example : verdictsOf [scen .dummy 497, scen .dummy 1, scen .dummy 497] = [.passed, .failed .result, .passed] := by decide +kernel

/-- C57 fails for scenarios that include others: whether gas is checked is then decided by the scenario that was included last. Here
a scenario that fails because the gas is not what it expects passes when it includes, before, a scenario that does nothing and
does not check gas. -/
theorem c57_external_neg : ∃ steps : List Step, verdictOf { gas := .dummy, steps := steps } scFresh = .failed .result ∧
    verdictOf { gas := .dummy, steps := .external false .dummy [] :: steps } scFresh = .passed :=
  ⟨(scen .dummy 1).steps, by decide +kernel, by decide +kernel⟩

/-- C58 fails for scenarios with different gas schedules: the executor loads a schedule only once, and runs all later scenarios
under it. Here a scenario that passes alone fails after another one that passes. -/
theorem c58_schedule_neg : verdictOf (scen .v1 487) scFresh.reset = .passed ∧ verdictsOf [scen .dummy 497, scen .v1 487] = [.passed, .failed .result] := by
  constructor <;> decide +kernel

/-! A deployment after another scenario -/

def eagerMock : List (Bytes × WasmModule EeiCall) :=
  [([1], eagerMod), ([2], mod [(Fixture.g, .ret)]), (List.replicate 50 3, mod [(Fixture.f, .ret)]), ([4], mod [(Fixture.f, .call (.getReturnDataSize (-1)) fun _ => .ret)])]
instance eagerMock_blind : BlindApi (mockEnv stillLib eagerMock) := inferInstanceAs (BlindApi (Env.real _))
def eagerRuns (l : List Scenario) : List Verdict :=
  (runScenarios (fun _ => mockEnv stillLib eagerMock) stillLib 20 Toy.codec (fun _ => some lockSched) l (freshRunner {} lockSched)).1
def eagerSet : Step := .setState
  { accounts := [{ address := user 1, balance := 100000 }, { address := addr 101, code := [2] }, { address := addr 102, code := List.replicate 50 3 }] }
/-- calls a contract with a long code -/
def longCall : Scenario :=
  { steps := [eagerSet, .tx { tx := { kind := .scCall, sender := user 1, to := addr 102, function := Fixture.f, gasPrice := 1, gasLimit := 20050 },
                              expect := some { status := { value := 0 }, message := { star := true }, gas := { star := true } } }] }
/-- calls a contract that makes the virtual machine panic -/
def fallCall : Scenario :=
  { steps := [eagerSet, .setState { accounts := [{ address := addr 103, code := [4] }] },
      .tx { tx := { kind := .scCall, sender := user 1, to := addr 103, function := Fixture.f, gasPrice := 1, gasLimit := 20050 } }] }
/-- C58: scenarios that meet the hypotheses, also after one in which the virtual machine panics -/
example : (∀ sc ∈ [longCall, fallCall, longCall], sc.gas = longCall.gas) ∧ PlainSteps longCall.steps ∧
    eagerRuns [longCall, fallCall, longCall] = [.passed, .failed (.tx .vm), .passed] :=
  ⟨by decide, ⟨trivial, ⟨by decide, by decide⟩, trivial⟩, by decide +kernel⟩
/-- deploys a contract whose init function makes an asynchronous call -/
def eagerDeploys : Scenario :=
  { steps := [eagerSet, .tx { tx := { kind := .scDeploy, sender := user 1, code := [1], gasPrice := 1, gasLimit := 20050 },
                              expect := some { out := [.anything, .anything], status := { value := 0 }, message := { star := true }, gas := { star := true } } }] }

/-- C58 fails for deployments: a scenario that passes alone fails after another one that passes, because the gas locked for the
callback of an asynchronous call in an init function depends on the size of the code that was loaded last. -/
theorem c58_deploy_neg : eagerRuns [eagerDeploys] = [.passed] ∧ eagerRuns [longCall, eagerDeploys] = [.passed, .failed .result] := by
  constructor <;> decide +kernel

end
end Arwen.Props
