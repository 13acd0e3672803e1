import Verif.Spec.Blocks
import Verif.Props.Scenario
/-
C76: in a scenario contracts are told about blocks what the last `setState` step said.
-/
namespace Arwen.Props
open Arwen Arwen.Mock Arwen.Spec Arwen.Eei

section
variable {χ A : Type} {E : Env χ A} {I : St χ A → Prop}

/-- API functions that do the same wherever an invariant holds can be exchanged -/
theorem runTx_asif (hV : Invariant E I) (api' : A → Free χ A Int64)
    (hP : ∀ a (E' : Env χ A) ex s, I s → interp E' ex (api' a) s = interp E' ex (E.api a) s) (n : Nat) (tx : Tx) (s : St χ A)
    (hr : AtRest E s) (hI : I (txStart E tx s)) (h : (runTx E n tx s).1 ≠ none) :
    runTx (E.withApi api') n tx s = runTx E n tx s := by
  refine (le_runTx hV ?_ (Nat.le_refl n) tx s hr hI).resolve_left h
  intro n m hB a s hI
  have h := le_interp hB.toA (E.api a) (fun _ h => ⟨a, h⟩) hI
  unfold LeIf at h ⊢
  rw [hP a _ _ s hI]
  exact h

theorem interp_gasK_world {ex : Executor χ A} (c : ApiCost) {k k' : P χ A} {s : St χ A}
    (h : ∀ u : St χ A, u.world = s.world → interp E ex k u = interp E ex k' u) : interp E ex (gasK c k) s = interp E ex (gasK c k') s := by
  show (useGas (s.met.sched.api c) >>= fun _ => interp E ex k) s = (useGas (s.met.sched.api c) >>= fun _ => interp E ex k') s
  have hu : (useGas (s.met.sched.api c) s).2.world = s.world := by
    have e : useGas (s.met.sched.api c) s = setPointsUsed (addU64 s.pointsUsed (s.met.sched.api c)) s := rfl
    rw [e]
    unfold setPointsUsed
    split <;> rfl
  simp only [M.bind_eq, M.bind]
  generalize useGas (s.met.sched.api c) s = q at hu
  obtain ⟨r, t⟩ := q
  cases r with
  | ok a => exact h t hu
  | panic => rfl
  | oof => rfl
end

/-- what a world says about blocks -/
def blocksOf (w : MockWorld) : Option BlockInfo × Option BlockInfo × List Bytes × Option Err := (w.previous, w.current, w.blockhashes, w.err)

section
variable {E : Env MockWorld EeiCall} {L : Lib}

theorem told_same (hE : E.hook = MockWorld.hook L) (hA : E.api = eei E) {x : SetState} {s : St MockWorld EeiCall}
    (hs : blocksOf s.world = (x.previous, x.current, x.blockhashes, none)) (a : EeiCall) (E' : Env MockWorld EeiCall)
    (ex : Executor MockWorld EeiCall) : interp E' ex (toldBlocks E x a) s = interp E' ex (E.api a) s := by
  have e1 : ∀ {u : St MockWorld EeiCall}, u.world = s.world → u.world.previous = x.previous := fun h => by rw [h]; exact congrArg (·.1) hs
  have e2 : ∀ {u : St MockWorld EeiCall}, u.world = s.world → u.world.current = x.current := fun h => by rw [h]; exact congrArg (·.2.1) hs
  have e3 : ∀ {u : St MockWorld EeiCall}, u.world = s.world → u.world.blockhashes = x.blockhashes := fun h => by rw [h]; exact congrArg (·.2.2.1) hs
  have e4 : ∀ {u : St MockWorld EeiCall}, u.world = s.world → u.world.err = none := fun h => by rw [h]; exact congrArg (·.2.2.2) hs
  have now : ∀ (c : ApiCost) (f : BlockInfo → Int64), interp E' ex (gasK c (.pure (f (x.current.getD {})))) s
      = interp E' ex (gasK c (.ask fun s => .pure (f (s.world.current.getD {})))) s := fun c f =>
    interp_gasK_world c fun u hu => by simp only [interp]; rw [e2 hu]
  have before : ∀ (c : ApiCost) (f : BlockInfo → Int64), interp E' ex (gasK c (.pure (f (x.previous.getD {})))) s
      = interp E' ex (gasK c (.ask fun s => .pure (f (s.world.previous.getD {})))) s := fun c f =>
    interp_gasK_world c fun u hu => by simp only [interp]; rw [e1 hu]
  rw [hA]
  cases a
  case getBlockTimestamp => simp only [toldBlocks, eei, blockTimestamp, hE]; exact now _ (fun b => b.timestamp.toInt64)
  case getBlockNonce => simp only [toldBlocks, eei, blockNonce, hE]; exact now _ (fun b => b.nonce.toInt64)
  case getBlockRound => simp only [toldBlocks, eei, blockRound, hE]; exact now _ (fun b => b.round.toInt64)
  case getBlockEpoch => simp only [toldBlocks, eei, blockEpoch, hE]; exact now _ (fun b => b.epoch.toUInt64.toInt64)
  case getPrevBlockTimestamp => simp only [toldBlocks, eei, prevBlockTimestamp, hE]; exact before _ (fun b => b.timestamp.toInt64)
  case getPrevBlockNonce => simp only [toldBlocks, eei, prevBlockNonce, hE]; exact before _ (fun b => b.nonce.toInt64)
  case getPrevBlockRound => simp only [toldBlocks, eei, prevBlockRound, hE]; exact before _ (fun b => b.round.toInt64)
  case getPrevBlockEpoch => simp only [toldBlocks, eei, prevBlockEpoch, hE]; exact before _ (fun b => b.epoch.toUInt64.toInt64)
  case getBlockRandomSeed off =>
    simp only [toldBlocks, eei, blockRandomSeed, hE]
    refine interp_gasK_world _ fun u hu => ?_
    have : (MockWorld.hook L).currentRandomSeed u.world = match x.current with | none => some [] | some b => b.seed := by
      show (match u.world.current with | none => some [] | some b => b.seed) = _
      rw [e2 hu]
    simp only [interp, this, namedSeed]
    cases x.current with
    | none => rfl
    | some b => dsimp only; cases b.seed <;> rfl
  case getPrevBlockRandomSeed off =>
    simp only [toldBlocks, eei, prevBlockRandomSeed, hE]
    refine interp_gasK_world _ fun u hu => ?_
    have : (MockWorld.hook L).lastRandomSeed u.world = match x.previous with | none => some [] | some b => b.seed := by
      show (match u.world.previous with | none => some [] | some b => b.seed) = _
      rw [e1 hu]
    simp only [interp, this, namedSeed]
    cases x.previous with
    | none => rfl
    | some b => dsimp only; cases b.seed <;> rfl
  case getBlockHash number off =>
    simp only [toldBlocks, eei, getBlockHash]
    refine interp_gasK_world _ fun u hu => ?_
    have : blockHash E u number = namedHash x number := by
      unfold blockHash namedHash
      rw [hE]
      show (if number < 0 then some [] else match u.world.blockhash number.toUInt64 with
        | none => none | some (.ok b) => some b | some (.error _) => some []) = _
      unfold MockWorld.blockhash
      rw [e2 hu, e3 hu, e4 hu]
      by_cases h1 : number < 0
      · rw [if_pos h1, if_pos (.inl h1)]
      · rw [if_neg h1]
        dsimp only
        by_cases h2 : (x.current.getD {}).nonce < number.toUInt64
        · rw [if_pos h2, if_pos (Or.inr h2)]
        · rw [if_neg h2, if_neg (fun h : number < 0 ∨ _ => h.elim h1 h2)]
          generalize (x.current.getD {}).nonce - number.toUInt64 = d
          have hd : d.toInt64 < 0 ↔ 2 ^ 63 ≤ d.toNat := by
            rw [Int64.lt_iff_toInt_lt]
            show d.toInt64.toInt < 0 ↔ _
            have := d.toNat_lt
            rw [← Int64.toInt_toBitVec, show d.toInt64.toBitVec = d.toBitVec from rfl, BitVec.toInt_eq_toNat_cond,
              show d.toBitVec.toNat = d.toNat from rfl]
            split <;> omega
          by_cases h3 : 2 ^ 63 ≤ d.toNat
          · rw [if_pos (hd.2 h3), if_pos h3]
          · rw [if_neg (fun h => h3 (hd.1 h)), if_neg h3]
            cases x.blockhashes[d.toNat]? <;> rfl
    simp only [interp, this]
    cases namedHash x number <;> rfl
  all_goals exact congrArg (fun p => interp E' ex p s) (congrFun hA _)

/-! ### Transactions leave the blocks -/

theorem stores_blocks {w v : MockWorld} (h : Stores w v) : blocksOf v = blocksOf w := by
  induction h with
  | nothing => rfl
  | value v a key value _ ih =>
    rw [← ih]
    unfold MockWorld.saveKeyValue
    split <;> rfl

theorem revert_blocks (w : MockWorld) (i : Int) : blocksOf (w.revert i).2 = blocksOf w := by
  unfold MockWorld.revert
  repeat' split
  all_goals rfl

theorem reached_blocks (hE : E.hook = MockWorld.hook L) (hL : StoringBuiltins L) {w v : MockWorld} (h : Reached E w v) :
    blocksOf v = blocksOf w := by
  induction h with
  | start => rfl
  | builtin v i _ ih =>
    rw [hE, ← ih]
    show blocksOf (match v.err with | some e => ((Except.error e : Except Err BuiltinOutput), v) | none => L.builtin v i).2 = _
    split
    · rfl
    · exact stores_blocks (hL v i)
  | revert v n _ ih => rw [hE, ← ih]; exact revert_blocks v n
  | saveCompiled v x c _ ih => rw [hE, ← ih]; rfl

theorem beforeTx_blocks (hL : StoringBuiltins L) (tx : ScTx) (w : MockWorld) : blocksOf (beforeTx L tx w).2 = blocksOf w := by
  have h1 : blocksOf (w.updateBefore tx.sender tx.gasLimit tx.gasPrice).2 = blocksOf w := by
    unfold MockWorld.updateBefore
    split
    · rfl
    · dsimp only
      split <;> rfl
  unfold beforeTx
  split
  · generalize w.updateBefore tx.sender tx.gasLimit tx.gasPrice = q at h1
    obtain ⟨b, v⟩ := q
    cases b with
    | false => exact h1
    | true =>
      dsimp only
      cases tx.esdt with
      | none => exact h1
      | some e =>
        obtain ⟨i, hi⟩ := directEsdt_world (L := L) v tx e
        have h2 : blocksOf (directEsdt L v tx e).2 = blocksOf w := by rw [hi]; exact (stores_blocks (hL v i)).trans h1
        dsimp only
        generalize directEsdt L v tx e = q at h2
        obtain ⟨r, u⟩ := q
        cases r <;> exact h2
  · rfl

theorem updateAccounts_blocks (es : List (Addr × OutAcc)) (w : MockWorld) :
    blocksOf (es.foldl (fun w p => w.updateAccount L p.1 p.2) w) = blocksOf w := by
  induction es generalizing w with
  | nil => rfl
  | cons p rest ih => rw [List.foldl_cons, ih]; rfl

theorem afterTx_blocks (tx : ScTx) (o : VMOutput) (w : MockWorld) : blocksOf (afterTx L tx o w).2 = blocksOf w := by
  unfold afterTx
  refine (updateAccounts_blocks _ _).trans ?_
  split
  · unfold MockWorld.updateBalanceWithDelta
    split <;> rfl
  · rfl

theorem runKind_blocks (hE : E.hook = MockWorld.hook L) (hL : StoringBuiltins L) (n : Nat) (index : Bytes) (tx : ScTx) (gas : UInt64)
    {s : St MockWorld EeiCall} (hr : AtRest E s) (h : (runKind E n index tx gas s).1 ≠ none) :
    blocksOf (runKind E n index tx gas s).2.world = blocksOf s.world := by
  by_cases hk : tx.kind = .validatorReward
  · unfold runKind
    rw [hk]
    split
    · rfl
    · dsimp only
      unfold rewardOutput
      split <;> rfl
  · exact reached_blocks hE hL (runKind_reached n index tx gas hr hk h)

theorem executeTx_blocks (hE : E.hook = MockWorld.hook L) (hL : StoringBuiltins L) (n : Nat) (index : Bytes) (tx : ScTx)
    {s : St MockWorld EeiCall} (hr : AtRest E s) (h : (executeTx E L n index tx s).1 ≠ none) :
    blocksOf (executeTx E L n index tx s).2.world = blocksOf s.world := by
  unfold executeTx at h ⊢
  have h1 := beforeTx_blocks hL tx s.world.backup
  generalize beforeTx L tx s.world.backup = q at h h1 ⊢
  obtain ⟨r, w⟩ := q
  have h1 : blocksOf w = blocksOf s.world := h1
  have k := fun gas => runKind_blocks hE hL n index tx gas (atRest_world hr w)
  match r with
  | .error (e, true) => exact (revert_blocks w 0).trans h1
  | .error (e, false) => exact h1
  | .ok gas =>
    have k := k gas
    dsimp only at h ⊢
    generalize runKind E n index tx gas { s with world := w } = a at k h ⊢
    obtain ⟨a1, a2⟩ := a
    dsimp only at k h ⊢
    match a1 with
    | none => exact absurd rfl h
    | some (.error e) => exact (revert_blocks a2.world 0).trans ((k (by simp)).trans h1)
    | some (.ok o) =>
      have k := (k (by simp)).trans h1
      dsimp only
      split
      · exact (afterTx_blocks tx o a2.world).trans k
      · exact (revert_blocks a2.world 0).trans k

/-! ### Transactions of contracts that are told -/

theorem runTx_told (hE : E.hook = MockWorld.hook L) (hA : E.api = eei E) (hL : StoringBuiltins L) {x : SetState} (n : Nat) (tx : Tx)
    {s : St MockWorld EeiCall} (hr : AtRest E s) (hs : blocksOf s.world = (x.previous, x.current, x.blockhashes, none))
    (h : (runTx E n tx s).1 ≠ none) : runTx (E.withApi (toldBlocks E x)) n tx s = runTx E n tx s := by
  refine runTx_asif (reached_unary s.world).invariant _ ?_ n tx s hr ?_ h
  · intro a E' ex u hu
    exact told_same hE hA ((reached_blocks hE hL hu).trans hs) a E' ex
  · show Reached E s.world (txStart E tx s).world
    rw [(txStart_keeps tx s).2.2.2.2]
    exact .start

theorem runKind_told (hE : E.hook = MockWorld.hook L) (hA : E.api = eei E) (hL : StoringBuiltins L) {x : SetState} (n : Nat) (h1 : 1 ≤ n)
    (hn : E.maxInstances ≤ n) (index : Bytes) (tx : ScTx) (gas : UInt64)
    {s : St MockWorld EeiCall} (hr : AtRest E s) (hs : blocksOf s.world = (x.previous, x.current, x.blockhashes, none)) :
    runKind (E.withApi (toldBlocks E x)) n index tx gas s = runKind E n index tx gas s := by
  have key : ∀ tx, runTx (E.withApi (toldBlocks E x)) n tx s = runTx E n tx s := fun tx =>
    runTx_told hE hA hL n tx hr hs (runTx_enough h1 hn tx s hr)
  have call : ∀ tx gas, scCall (E.withApi (toldBlocks E x)) n index tx gas s = scCall E n index tx gas s := by
    intro tx gas
    unfold scCall
    simp only [key]
  unfold runKind
  split
  · rfl
  · cases tx.kind with
    | scDeploy => exact congrArg (fun r : RunResult × St MockWorld EeiCall => (vmResult r.1, r.2)) (key _)
    | scCall => exact call _ _
    | scQuery => exact call _ _
    | transfer => rfl
    | validatorReward => rfl

theorem executeTx_told (hE : E.hook = MockWorld.hook L) (hA : E.api = eei E) (hL : StoringBuiltins L) {x : SetState} (n : Nat) (h1 : 1 ≤ n)
    (hn : E.maxInstances ≤ n) (index : Bytes) (tx : ScTx)
    {s : St MockWorld EeiCall} (hr : AtRest E s) (hs : blocksOf s.world = (x.previous, x.current, x.blockhashes, none)) :
    executeTx (E.withApi (toldBlocks E x)) L n index tx s = executeTx E L n index tx s := by
  unfold executeTx
  have k1 := beforeTx_blocks hL tx s.world.backup
  generalize beforeTx L tx s.world.backup = q at k1 ⊢
  obtain ⟨r, w⟩ := q
  have k1 : blocksOf w = blocksOf s.world := k1
  match r with
  | .error (e, true) => rfl
  | .error (e, false) => rfl
  | .ok gas =>
    dsimp only
    rw [runKind_told hE hA hL n h1 hn index tx gas (atRest_world hr w) (k1.trans hs)]
end

/-! ### Steps -/

variable {env : GasSchedule → Env MockWorld EeiCall} {L : Lib} {n : Nat} {C : TokenCodec} {load : GasKind → Option GasSchedule}

theorem setAccounts_blocks (l : List SetAccount) (w : MockWorld) : blocksOf (Mock.setAccounts w l).2 = blocksOf w := by
  induction l generalizing w with
  | nil => rfl
  | cons x rest ih =>
    have h : blocksOf (setAccount w x).2 = blocksOf w := by
      unfold setAccount
      split
      · rfl
      · dsimp only
        split <;> rfl
    unfold Mock.setAccounts
    generalize setAccount w x = q at h
    obtain ⟨b, v⟩ := q
    cases b with
    | true => exact (ih v).trans h
    | false => exact h

theorem setWorld_blocks {x : SetState} {w v : MockWorld} (h : setWorld C x w = (true, v)) (hw : w.err = none) :
    blocksOf v = (x.previous, x.current, x.blockhashes, none) := by
  have k := setAccounts_blocks (x.accounts.map (convertAccount C)) w
  unfold setWorld at h
  generalize Mock.setAccounts w (x.accounts.map (convertAccount C)) = q at h k
  obtain ⟨b, u⟩ := q
  have ke : u.err = none := (congrArg (·.2.2.2) k).trans hw
  cases b with
  | false => cases h
  | true =>
    dsimp only at h
    split at h
    · cases h
      show (_, _, _, u.err) = _
      rw [ke]
    · cases h

mutual
theorem step_keeps_blocks (hw : ∀ g, (env g).useWarm = false) (hE : ∀ g, (env g).hook = MockWorld.hook L) (hL : StoringBuiltins L)
    {g : GasSchedule} : ∀ (s : Step) {x : Runner EeiCall}, Ready env g x → SetsNothing s → Sound (runStep env L n C load s x).1 →
    blocksOf (runStep env L n C load s x).2.st.world = blocksOf x.st.world
  | .external b k steps, x, h, hn, hs => by
    simp only [runStep, enter_loaded h.loaded] at hs ⊢
    exact steps_keep_blocks hw hE hL steps (h.checks b) hn hs
  | .unreadable, x, h, _, _ => by simp only [runStep]
  | .setState s, x, h, hn, _ => hn.elim
  | .checkState c, x, h, _, _ => by simp only [runStep]
  | .tx t, x, h, _, hs => by
    simp only [runStep] at hs ⊢
    unfold runTxStep at hs ⊢
    rw [h.sched] at hs ⊢
    have k := executeTx_blocks (hE g) hL n t.id t.tx h.idle.toAtRest
    generalize executeTx (env g) L n t.id t.tx x.st = q at hs k ⊢
    obtain ⟨r, u⟩ := q
    match r with
    | none => exact absurd rfl hs
    | some (.error e) => exact k (by simp)
    | some (.ok o) =>
      dsimp only
      split
      · exact k (by simp)
      · split <;> exact k (by simp)
  | .dump, x, h, _, _ => by simp only [runStep]
theorem steps_keep_blocks (hw : ∀ g, (env g).useWarm = false) (hE : ∀ g, (env g).hook = MockWorld.hook L) (hL : StoringBuiltins L)
    {g : GasSchedule} : ∀ (l : List Step) {x : Runner EeiCall}, Ready env g x → AllSetNothing l → Sound (runSteps env L n C load l x).1 →
    blocksOf (runSteps env L n C load l x).2.st.world = blocksOf x.st.world
  | [], x, h, _, _ => by simp only [runSteps]
  | s :: rest, x, h, hn, hs => by
    have k := step_keeps_blocks hw hE hL s h hn.1
    have kx := step_ready (L := L) (n := n) (C := C) (load := load) hw s h
    simp only [runSteps] at hs ⊢
    generalize runStep env L n C load s x = a at k kx hs ⊢
    obtain ⟨v, x'⟩ := a
    cases v with
    | passed => exact (steps_keep_blocks hw hE hL rest (kx sound_passed) hn.2 hs).trans (k sound_passed)
    | failed f => exact k hs
    | unknown => exact k hs
end

theorem runSteps_cons {s : Step} {rest : List Step} {x y : Runner EeiCall} (h : runSteps env L n C load (s :: rest) x = (.passed, y)) :
    ∃ z, runStep env L n C load s x = (.passed, z) ∧ runSteps env L n C load rest z = (.passed, y) := by
  simp only [runSteps] at h
  generalize runStep env L n C load s x = a at h ⊢
  obtain ⟨v, z⟩ := a
  cases v with
  | passed => exact ⟨z, rfl, h⟩
  | failed f => cases h
  | unknown => cases h

/-- the blocks after steps that passed -/
theorem steps_blocks (hw : ∀ g, (env g).useWarm = false) (hE : ∀ g, (env g).hook = MockWorld.hook L) (hL : StoringBuiltins L)
    {g : GasSchedule} {c : UInt32 × Bytes} {l : List Step} {d : SetState} (hl : LastSet l d) : ∀ {x y : Runner EeiCall}, Ready env g x →
    settings x.st.world = (c.1, c.2, none) → (AllSetNothing l → blocksOf x.st.world = (none, none, [], none)) →
    runSteps env L n C load l x = (.passed, y) → blocksOf y.st.world = (d.previous, d.current, d.blockhashes, none) := by
  induction hl with
  | @never l hl =>
    intro x y hx hc hb h
    have := steps_keep_blocks hw hE hL l hx hl (by rw [h]; exact sound_passed)
    rw [h] at this
    exact this.trans (hb hl)
  | @now d rest hr =>
    intro x y hx hc _ h
    obtain ⟨z, h1, h2⟩ := runSteps_cons h
    have kx := step_ready (L := L) (n := n) (C := C) (load := load) hw (.setState d) hx (by rw [h1]; exact sound_passed)
    rw [h1] at kx
    have k := steps_keep_blocks hw hE hL rest kx hr (by rw [h2]; exact sound_passed)
    rw [h2] at k
    refine k.trans ?_
    simp only [runStep] at h1
    generalize hq : setWorld C d x.st.world = q at h1
    obtain ⟨b, w⟩ := q
    cases b with
    | false => cases h1
    | true =>
      cases h1
      exact setWorld_blocks hq (congrArg (·.2.2) hc)
  | @inside b k steps rest d hn _ hr ih =>
    intro x y hx hc _ h
    obtain ⟨z, h1, h2⟩ := runSteps_cons h
    have kx := step_ready (L := L) (n := n) (C := C) (load := load) hw (.external b k steps) hx (by rw [h1]; exact sound_passed)
    rw [h1] at kx
    have k := steps_keep_blocks hw hE hL rest kx hr (by rw [h2]; exact sound_passed)
    rw [h2] at k
    refine k.trans ?_
    simp only [runStep, enter_loaded hx.loaded] at h1
    exact ih (hx.checks b) hc (fun h => absurd h hn) h1
  | @later s rest d hn _ ih =>
    intro x y hx hc _ h
    obtain ⟨z, h1, h2⟩ := runSteps_cons h
    have kx := step_ready (L := L) (n := n) (C := C) (load := load) hw s hx (by rw [h1]; exact sound_passed)
    have ks := step_settings (L := L) (n := n) (C := C) (load := load) hw hE hL s hx (by rw [h1]; exact sound_passed)
    rw [h1] at kx ks
    exact ih kx (ks.trans hc) (fun h => absurd h hn) h2

/-- an executor between scenarios, whatever schedules they ask for -/
structure AtPeace (env : GasSchedule → Env MockWorld EeiCall) (c : UInt32 × Bytes × Option Err) (x : Runner EeiCall) : Prop where
  idle : Idle (env x.st.met.sched) x.st
  settings : settings x.st.world = c

theorem calm_enter (hw : ∀ g, (env g).useWarm = false) {c : UInt32 × Bytes × Option Err} {x : Runner EeiCall} (h : AtPeace env c x) (b : Bool) (k : GasKind) :
    enterScenario load b k x.reset = (false, { x.reset with checkGas := b }) ∨
    ∃ g y, enterScenario load b k x.reset = (true, y) ∧ Ready env g y ∧ y.st.world = x.st.world.clear := by
  by_cases hl : x.loaded = true
  · exact .inr ⟨x.st.met.sched, _, enter_loaded (x := x.reset) hl b k, ⟨hl, rfl, idle_world h.idle _⟩, rfl⟩
  · have e : enterScenario load b k x.reset = match load k with
        | none => (false, { x.reset with checkGas := b })
        | some g => (true, { st := { x.reset.st with met := { x.reset.st.met with sched := g } }, checkGas := b, loaded := true }) :=
      if_neg hl
    rw [e]
    cases hk : load k with
    | none => exact .inl rfl
    | some g => exact .inr ⟨g, _, rfl, ⟨rfl, rfl, idle_sched (idle_world (idle_env (hw _) h.idle) _) g⟩, rfl⟩

theorem calm_scenario (hw : ∀ g, (env g).useWarm = false) (hE : ∀ g, (env g).hook = MockWorld.hook L) (hL : StoringBuiltins L)
    (h1 : 1 ≤ n) (hn : ∀ g, (env g).maxInstances ≤ n) {c : UInt32 × Bytes × Option Err} {x : Runner EeiCall} (h : AtPeace env c x) (sc : Scenario) :
    AtPeace env c (runScenario env L n C load sc x.reset).2 := by
  unfold runScenario
  rcases calm_enter hw h sc.checkGas sc.gas with e2 | ⟨g, y, e2, e3, e4⟩
  · rw [e2]
    exact ⟨idle_world h.idle _, h.settings⟩
  · rw [e2]
    dsimp only
    have hs : Sound (runSteps env L n C load sc.steps y).1 := steps_known hw h1 hn sc.steps e3
    have k1 := steps_ready hw sc.steps e3 hs
    have k2 := steps_settings hw hE hL sc.steps e3 hs
    refine ⟨?_, ?_⟩
    · rw [k1.sched]; exact k1.idle
    · rw [k2, e4]; exact h.settings

theorem calm_scenarios (hw : ∀ g, (env g).useWarm = false) (hE : ∀ g, (env g).hook = MockWorld.hook L) (hL : StoringBuiltins L)
    (h1 : 1 ≤ n) (hn : ∀ g, (env g).maxInstances ≤ n) {c : UInt32 × Bytes × Option Err} : ∀ (scs : List Scenario) {x : Runner EeiCall},
    AtPeace env c x → AtPeace env c (runScenarios env L n C load scs x).2
  | [], _, h => h
  | sc :: rest, _, h => calm_scenarios hw hE hL h1 hn rest (calm_scenario hw hE hL h1 hn h sc)

/-- **C76.** In a scenario, run by an executor after any others, after steps that passed, a transaction does exactly what it does on a host that
answers every question about the current block, the block before and the hashes of blocks with what the last `setState` step said, at
any depth of calls. -/
theorem c76_told (hw : ∀ g, (env g).useWarm = false) (hE : ∀ g, (env g).hook = MockWorld.hook L) (hA : ∀ g, (env g).api = eei (env g))
    (hL : StoringBuiltins L) (h1 : 1 ≤ n) (hn : ∀ g, (env g).maxInstances ≤ n) (w : MockWorld) (he : w.err = none) (g : GasSchedule)
    (scs : List Scenario) (sc : Scenario) (d : SetState) (hl : LastSet sc.steps d) (y : Runner EeiCall)
    (h : runScenario env L n C load sc (runScenarios env L n C load scs (freshRunner w g)).2.reset = (.passed, y)) (t : TxStep) :
    runTxStep env L n t y = runTxStep (fun g => (env g).withApi (toldBlocks (env g) d)) L n t y := by
  have hx := calm_scenarios (C := C) (load := load) hw hE hL h1 hn scs (x := freshRunner w g) (c := settings w) ⟨idle_fresh w g, rfl⟩
  generalize (runScenarios env L n C load scs (freshRunner w g)).2 = x at hx h
  have hc : x.st.world.err = none := (congrArg (·.2.2) hx.settings).trans he
  unfold runScenario at h
  rcases calm_enter (load := load) hw hx sc.checkGas sc.gas with e2 | ⟨g', z, e2, e3, e4⟩
  · rw [e2] at h; cases h
  rw [e2] at h
  dsimp only at h
  have hs : settings z.st.world = (x.st.world.selfShard, x.st.world.stateRootHash, none) := by
    rw [e4, ← hc]
    rfl
  have hb : blocksOf z.st.world = (none, none, [], none) := by
    rw [e4, ← hc]
    rfl
  have k := steps_blocks (c := (x.st.world.selfShard, x.st.world.stateRootHash)) hw hE hL hl e3 hs (fun _ => hb) h
  have ky := steps_ready (L := L) (n := n) (C := C) (load := load) hw sc.steps e3 (by rw [h]; exact sound_passed)
  rw [h] at ky
  have := executeTx_told (hE y.st.met.sched) (hA _) hL n h1 (hn _) t.id t.tx (x := d) (s := y.st)
    (by have := ky.idle.toAtRest; rw [← ky.sched] at this; exact this) k
  unfold runTxStep
  rw [this]

/-! ### Examples -/

section
open Fixture

/-- a contract whose functions return what they are told about blocks: `f` the number of the current block, `g` the hash of block 7,
`h` the seed of the block before -/
def blockMods : List (Bytes × WasmModule EeiCall) :=
  [([1], mod [(Fixture.f, .call .getBlockNonce fun n => .call (.int64finish n) fun _ => .ret),
              (Fixture.g, .call (.getBlockHash 7 300) fun _ => .call (.finish 300 2) fun _ => .ret),
              ([104], .call (.getPrevBlockRandomSeed 300) fun _ => .call (.finish 300 48) fun _ => .ret)])]
def blockEnv : GasSchedule → Env MockWorld EeiCall := fun _ => mockEnv stillLib blockMods
def blockAsk (fn : Bytes) (answer : Bytes) : Step :=
  .tx { tx := { kind := .scCall, sender := user 1, to := addr 100, function := fn, gasPrice := 1, gasLimit := 500 },
        expect := some { out := [{ value := answer }], status := { value := 0 }, message := { star := true }, gas := { star := true } } }
/-- block 9 is the current one, and the hashes go back to block 7 -/
def blockSet (seed : Option Bytes) : SetState :=
  { accounts := [{ address := user 1, balance := 10000 }, { address := addr 100, code := [1] }], previous := some { nonce := 8, seed := seed },
    current := some { nonce := 9, seed := some [1] }, blockhashes := [[9, 9], [8, 8], [7, 7]] }
def blockScen (steps : List Step) (seed : Option Bytes := some (List.replicate 48 6)) : Scenario :=
  { gas := .dummy, steps := [.setState { current := some { nonce := 1 } }, .external true .dummy [.setState (blockSet seed), .dump]] ++ steps }
def blockVerdict (sc : Scenario) : Verdict := (runScenario blockEnv stillLib 20 Toy.codec scLoad sc (freshRunner {} sched).reset).1

/-- the hypotheses of `c76_told` are met, by a scenario that sets the state twice, the second time in one that it includes -/
example : LastSet (blockScen [.dump]).steps (blockSet (some (List.replicate 48 6))) ∧ blockVerdict (blockScen [.dump]) = .passed ∧
    (∀ g, (blockEnv g).useWarm = false) ∧ (∀ g, (blockEnv g).hook = MockWorld.hook stillLib) ∧ (∀ g, (blockEnv g).maxInstances ≤ 20) := by
  refine ⟨.later (by simp [AllSetNothing, SetsNothing]) (.inside (by simp [AllSetNothing, SetsNothing]) (.now (by simp [AllSetNothing, SetsNothing]))
    (by simp [AllSetNothing, SetsNothing])), by decide +kernel, fun _ => rfl, fun _ => rfl, fun _ => (by decide : (10 : Nat) ≤ 20)⟩
example : ∀ g, (blockEnv g).api = eei (blockEnv g) := fun _ => rfl
/-- and the contract is told so -/
example : blockVerdict (blockScen [blockAsk Fixture.f [9], blockAsk Fixture.g [7, 7], blockAsk [104] (List.replicate 48 6)]) = .passed := by decide +kernel

/-- In a scenario whose block before has no seed, a contract that asks for it makes the virtual machine panic. -/
theorem c76_seed_neg : blockVerdict (blockScen [blockAsk [104] []] none) = .failed (.tx .vm) ∧
    blockVerdict (blockScen [blockAsk Fixture.f [9]] none) = .passed := by
  constructor <;> decide +kernel

/-- a scenario whose current block has the number `n` -/
def farScen (n : UInt64) : Scenario :=
  { gas := .dummy, steps := [.setState { accounts := (blockSet none).accounts, current := some { nonce := n }, blockhashes := [[9, 9]] },
      blockAsk Fixture.g [0, 0]] }
/-- Asking for the hash of a block that is too old is answered with nothing, unless it is 2^63 or more blocks before the current one: then
the virtual machine panics, since the distance is a negative number for the mock chain. -/
theorem c76_hash_neg : blockVerdict (farScen (2 ^ 63 + 6)) = .passed ∧ blockVerdict (farScen (2 ^ 63 + 7)) = .failed (.tx .vm) := by
  constructor <;> decide +kernel
end

end Arwen.Props
