import Verif.Spec.Executor
import Verif.Host.AccInv
import Verif.Host.Limit
import Verif.Props.World
import Verif.Props.Value
/-
C51, C52: what a transaction of a scenario does to the mock world.
-/
namespace Arwen.Props
open Arwen.Mock Arwen.Spec

/-! ### The world during a transaction -/

section
variable {χ A : Type} {E : Env χ A}

theorem getNonce_world (a : Addr) (s : St χ A) : (getNonce E a s).2.world = s.world := by
  unfold getNonce
  dsimp only
  repeat' split
  all_goals rfl

theorem newAddress_world (a : Addr) (s : St χ A) : (newAddress E a s).2.world = s.world := by
  unfold newAddress
  dsimp only
  split <;> exact getNonce_world a s

theorem txStart_world (tx : Tx) (s : St χ A) : (txStart E tx s).world = s.world := by
  cases tx with
  | call i => rfl
  | create i =>
    unfold txStart
    dsimp only
    split
    · rfl
    · exact newAddress_world (E := E) i.vm.caller (hostInit E s)

theorem hostClean_world (s : St χ A) : (hostClean s).world = s.world := by
  unfold hostClean St.cleanInstance
  repeat' split
  all_goals rfl

theorem resetWarm_world (s : St χ A) : s.resetWarm.world = s.world := by
  unfold St.resetWarm
  split <;> rfl

/-- after a transaction, also one that panicked, the node is in a state that a run can lead to -/
theorem reached_tx (n : Nat) (tx : Tx) {s : St χ A} (hr : AtRest E s) (h : (runTx E n tx s).1 ≠ none) :
    Reached E s.world (runTx E n tx s).2.world := by
  have key : ∀ r t, txBody E (execN E n) tx (hostInit E s) = (r, t) → r ≠ .oof → Reached E s.world t.world := by
    intro r t he hn
    refine (reached_unary s.world).txBody (fun _ _ _ h => h) n tx hr he hn ?_
    rw [txStart_world]
    exact .start
  have h1 := runTx_any (E := E) n tx s
  generalize (runTx E n tx s).2 = u at h1 ⊢
  generalize (runTx E n tx s).1 = q at h1 h
  cases h1 with
  | ok o t h5 => rw [hostClean_world]; exact key _ t h5 (fun h => by cases h)
  | panic t h5 => rw [hostClean_world]; exact key _ t h5 (fun h => by cases h)
  | reset o t h5 h6 => rw [resetWarm_world, hostClean_world]; exact key _ t h5 (fun h => by cases h)
  | oof t h5 => exact absurd rfl h

end

variable {A : Type} {E : Env MockWorld A} {L : Lib}

/-! ### Balances -/

theorem perm_sumInt {l l' : List Int} (h : l.Perm l') : l.sum = l'.sum := by
  induction h with
  | nil => rfl
  | cons _ _ ih => simp [ih]
  | swap => simp; omega
  | trans _ _ ih ih' => exact ih.trans ih'

theorem sumBy_congr {f : WAcc → Int} {m m' : AccountMap} (h : ∀ a, (m.get? a).map f = (m'.get? a).map f) :
    AMap.sumBy f m = AMap.sumBy f m' := by
  have h1 : (m.mapVal f).entries.Perm (m'.mapVal f).entries :=
    AMap.perm_of_get?_eq (fun a => by rw [AMap.get?_mapVal, AMap.get?_mapVal]; exact h a)
  have h2 := perm_sumInt (h1.map Prod.snd)
  unfold AMap.mapVal at h2
  simp only [List.map_map] at h2
  exact h2

/-- the same accounts with the same balances -/
def SameBalances (w v : MockWorld) : Prop := ∀ a, (v.account a).map WAcc.balance = (w.account a).map WAcc.balance

theorem SameBalances.trans {w v u : MockWorld} (h : SameBalances w v) (h' : SameBalances v u) : SameBalances w u :=
  fun a => (h' a).trans (h a)

theorem SameBalances.wealth {w v : MockWorld} (h : SameBalances w v) : wealth v = wealth w := sumBy_congr h

theorem revert_accts (w : MockWorld) (i : Int) (a : Addr) : (w.revert i).2.account a = w.account a ∨
    ∃ acc o, w.account a = some acc ∧ (∃ m ∈ w.snapshots, m.get? a = some o) ∧
      (w.revert i).2.account a = some { acc with storage := o.storage } := by
  unfold MockWorld.revert
  split
  · exact .inl rfl
  · split
    · exact .inl rfl
    · rename_i h1 h2
      cases hm : w.snapshots[i.toNat]? with
      | none => rw [List.getElem?_eq_none_iff] at hm; omega
      | some m =>
        dsimp only
        rcases load_any m w.accts.entries w.accts a with h | ⟨acc, o, h3, h4, h5⟩
        · exact .inl h
        · exact .inr ⟨acc, o, (AMap.mem_entries_iff _ _ _).mp h3, ⟨m, List.mem_of_getElem? hm, h4⟩, h5⟩

theorem revert_balances (w : MockWorld) (i : Int) : SameBalances w (w.revert i).2 := by
  intro a
  rcases revert_accts w i a with h | ⟨acc, o, h1, _, h2⟩
  · rw [h]
  · rw [h1, h2]; rfl

theorem reached_balances (hE : E.hook = MockWorld.hook L) (hB : BalancesKept L) {w v : MockWorld} (h : Reached E w v) :
    SameBalances w v := by
  induction h with
  | start => exact fun _ => rfl
  | builtin v i _ ih =>
    rw [hE]
    refine ih.trans ?_
    show SameBalances v (match v.err with | some e => ((Except.error e : Except Err BuiltinOutput), v) | none => L.builtin v i).2
    split
    · exact fun _ => rfl
    · exact hB v i
  | revert v n _ ih => rw [hE]; exact ih.trans (revert_balances v n)
  | saveCompiled v x c _ ih => rw [hE]; exact ih

theorem applyOutput_balance (o : OutAcc) (acc : WAcc) : (MockWorld.applyOutput L o acc).balance = acc.balance + o.balanceDelta := by
  unfold MockWorld.applyOutput WAcc.setCodeAndMetadata
  dsimp only
  repeat' split
  all_goals rfl

theorem updateAccount_wealth (w : MockWorld) (a : Addr) (o : OutAcc) :
    wealth (w.updateAccount L a o) = wealth w + o.balanceDelta := by
  show AMap.sumBy WAcc.balance (w.accts.insert a _) = AMap.sumBy WAcc.balance w.accts + _
  rw [AMap.sumBy_insert, applyOutput_balance]
  show AMap.sumBy WAcc.balance w.accts - ((w.account a).map WAcc.balance).getD 0 + _ = _
  cases w.account a with
  | none => dsimp only [Option.getD_none, Option.map_none]; omega
  | some acc => dsimp only [Option.getD_some, Option.map_some]; omega

theorem updateAccounts_wealth (es : List (Addr × OutAcc)) (w : MockWorld) :
    wealth (es.foldl (fun w p => w.updateAccount L p.1 p.2) w) = wealth w + (es.map fun p => p.2.balanceDelta).sum := by
  induction es generalizing w with
  | nil => simp
  | cons p rest ih => rw [List.foldl_cons, ih, updateAccount_wealth, List.map_cons, List.sum_cons]; omega

theorem sumOfDeltas_eq (o : VMOutput) : sumOfDeltas o = totalChange o := by
  unfold sumOfDeltas totalChange
  have : ∀ (l : List (Addr × OutAcc)) (n : Int), l.foldl (fun n p => n + p.2.balanceDelta) n = n + (l.map fun p => p.2.balanceDelta).sum := by
    intro l
    induction l with
    | nil => intro n; simp
    | cons p rest ih => intro n; rw [List.foldl_cons, ih, List.map_cons, List.sum_cons]; omega
  rw [this]; omega

theorem put_wealth {w : MockWorld} {a : Addr} {acc : WAcc} (h : w.account a = some acc) (new : WAcc) :
    wealth (w.put a new) = wealth w + (new.balance - acc.balance) := by
  show AMap.sumBy WAcc.balance (w.accts.insert a new) = AMap.sumBy WAcc.balance w.accts + _
  rw [AMap.sumBy_insert, show w.accts.get? a = some acc from h]
  dsimp only [Option.getD_some, Option.map_some]
  omega

/-! ### The stages of a transaction -/

theorem atRest_world {s : St MockWorld A} (h : AtRest E s) (w : MockWorld) : AtRest E { s with world := w } := ⟨h.inst, h.stack, h.warm⟩

theorem vmResult_some {r : RunResult} (h : vmResult r ≠ none) : r ≠ none := fun h' => h (by rw [h']; rfl)

theorem runKind_reached (n : Nat) (index : Bytes) (tx : ScTx) (gas : UInt64) {s : St MockWorld A} (hr : AtRest E s)
    (hk : tx.kind ≠ .validatorReward) (h : (runKind E n index tx gas s).1 ≠ none) :
    Reached E s.world (runKind E n index tx gas s).2.world := by
  have call : ∀ tx gas, (scCall E n index tx gas s).1 ≠ none → Reached E s.world (scCall E n index tx gas s).2.world := by
    intro tx gas h
    unfold scCall at h ⊢
    split
    · exact .start
    · rename_i acc hacc
      rw [hacc] at h
      dsimp only at h
      split
      · exact .start
      · rename_i hc
        rw [if_neg hc] at h
        exact reached_tx n _ hr (vmResult_some h)
  unfold runKind at h ⊢
  split
  · exact .start
  · rename_i hb
    rw [if_neg hb] at h
    cases hkind : tx.kind with
    | scDeploy => rw [hkind] at h; exact reached_tx n _ hr (vmResult_some h)
    | scCall => rw [hkind] at h; exact call _ _ h
    | scQuery => rw [hkind] at h; exact call _ _ h
    | transfer => exact .start
    | validatorReward => exact absurd hkind hk

theorem runKind_output (hB : FairBuiltins E) (hC : NoCreateApi E) (n : Nat) (index : Bytes) (tx : ScTx) (gas : UInt64)
    {s : St MockWorld A} (hr : AtRest E s) {o : VMOutput} (hk : tx.kind.hasSender = true)
    (h : (runKind E n index tx gas s).1 = some (.ok o)) (hok : o.returnCode = .ok) : totalChange o = tx.value := by
  have res : ∀ r, vmResult r = some (.ok o) → r = some (some o) := by
    intro r hr
    match r, hr with
    | some (some o'), hr =>
      have h1 : (Option.some (Except.ok o') : Option (Except StepErr VMOutput)) = some (.ok o) := hr
      cases h1
      rfl
  unfold runKind at h
  split at h
  · cases h; cases hok
  · cases hkind : tx.kind with
    | scDeploy =>
      rw [hkind] at h
      exact c15_tx_partial hB hC n (.create { vm := vmInput index tx gas, code := tx.code, metadata := [] }) hr (res _ h) hok
    | scCall =>
      rw [hkind] at h
      dsimp only [scCall] at h
      split at h
      · cases h
      · split at h
        · cases h
        · exact c15_tx_partial hB hC n (.call { vm := vmInput index tx gas, recipient := tx.to, function := tx.function }) hr (res _ h) hok
    | scQuery => rw [hkind] at hk; cases hk
    | transfer =>
      rw [hkind] at h
      cases h
      show AMap.sumBy OutAcc.balanceDelta (AMap.empty.insert tx.to { balanceDelta := tx.value }) = _
      rw [AMap.sumBy_insert, AMap.sumBy_empty]
      show (0 : Int) - 0 + tx.value = tx.value
      omega
    | validatorReward => rw [hkind] at hk; cases hk

theorem updateBefore_ok {w v : MockWorld} {a : Addr} {l p : UInt64} (h : w.updateBefore a l p = (true, v)) :
    ∃ acc, w.account a = some acc ∧ ¬ acc.balance < (l.toNat * p.toNat : Int) ∧
      v = w.put a { acc with nonce := acc.nonce + 1, balance := acc.balance - (l.toNat * p.toNat : Int) } := by
  unfold MockWorld.updateBefore at h
  cases ha : w.account a with
  | none => rw [ha] at h; cases h
  | some acc =>
    rw [ha] at h
    dsimp only at h
    split at h
    · cases h
    · rename_i hb; cases h; exact ⟨acc, rfl, hb, rfl⟩

theorem directEsdt_world (w : MockWorld) (tx : ScTx) (e : EsdtTx) : ∃ i, (directEsdt L w tx e).2 = (L.builtin w i).2 := by
  unfold directEsdt
  dsimp only
  generalize (if e.nonce > 0 then _ else _ : CallInput) = i
  refine ⟨i, ?_⟩
  generalize L.builtin w i = q
  obtain ⟨b | b, v⟩ := q
  · rfl
  · dsimp only
    split <;> rfl

/-- before the execution: the sender paid, and then perhaps a built-in function ran -/
theorem beforeTx_ok {tx : ScTx} {w v : MockWorld} {gas : UInt64} (hs : tx.kind.hasSender = true) (h : beforeTx L tx w = (.ok gas, v)) :
    ∃ acc, w.account tx.sender = some acc ∧ ¬ acc.balance < gasPayment tx ∧
      (v = w.put tx.sender { acc with nonce := acc.nonce + 1, balance := acc.balance - gasPayment tx } ∨
       ∃ i, v = (L.builtin (w.put tx.sender { acc with nonce := acc.nonce + 1, balance := acc.balance - gasPayment tx }) i).2) := by
  unfold beforeTx at h
  rw [if_pos hs] at h
  generalize hq : w.updateBefore tx.sender tx.gasLimit tx.gasPrice = q at h
  obtain ⟨ok, u⟩ := q
  cases ok with
  | false => cases h
  | true =>
    obtain ⟨acc, h1, h2, h3⟩ := updateBefore_ok hq
    refine ⟨acc, h1, h2, ?_⟩
    dsimp only at h
    cases he : tx.esdt with
    | none => rw [he] at h; cases h; exact .inl h3
    | some e =>
      rw [he] at h
      dsimp only at h
      obtain ⟨i, h4⟩ := directEsdt_world (L := L) u tx e
      generalize directEsdt L u tx e = q at h h4
      obtain ⟨g | g, x⟩ := q
      · cases h
      · cases h; subst h3; exact .inr ⟨i, h4⟩

theorem beforeTx_error {tx : ScTx} {w v : MockWorld} {e : StepErr} {b : Bool} (h : beforeTx L tx w = (.error (e, b), v)) :
    e ≠ .badSum ∧ tx.kind.hasSender = true ∧
    ((b = true ∧ w.updateBefore tx.sender tx.gasLimit tx.gasPrice = (false, v)) ∨
     (b = false ∧ ∃ u i, w.updateBefore tx.sender tx.gasLimit tx.gasPrice = (true, u) ∧ v = (L.builtin u i).2)) := by
  unfold beforeTx at h
  split at h
  · rename_i hs
    generalize hq : w.updateBefore tx.sender tx.gasLimit tx.gasPrice = q at h
    obtain ⟨ok, u⟩ := q
    cases ok with
    | false => cases h; exact ⟨(fun h => by cases h), hs, .inl ⟨rfl, rfl⟩⟩
    | true =>
      dsimp only at h
      cases he : tx.esdt with
      | none => rw [he] at h; cases h
      | some x =>
        rw [he] at h
        dsimp only at h
        obtain ⟨i, h4⟩ := directEsdt_world (L := L) u tx x
        generalize directEsdt L u tx x = q at h h4
        obtain ⟨g | g, x⟩ := q
        · cases h; exact ⟨(fun h => by cases h), hs, .inr ⟨rfl, u, i, rfl, h4⟩⟩
        · cases h
  · cases h

theorem runKind_error {n : Nat} {index : Bytes} {tx : ScTx} {gas : UInt64} {s t : St MockWorld A} {e : StepErr}
    (h : runKind E n index tx gas s = (some (.error e), t)) : e ≠ .badSum := by
  have res : ∀ r, vmResult r = some (.error e) → e ≠ .badSum := by
    intro r hr
    match r, hr with
    | some none, hr =>
      have h1 : (Option.some (Except.error .vm) : Option (Except StepErr VMOutput)) = some (.error e) := hr
      cases h1
      exact fun h => by cases h
  have call : ∀ tx gas, (scCall E n index tx gas s).1 = some (.error e) → e ≠ .badSum := by
    intro tx gas h
    unfold scCall at h
    split at h
    · cases h; exact fun h => by cases h
    · split at h
      · cases h; exact fun h => by cases h
      · exact res _ h
  have h := congrArg Prod.fst h
  unfold runKind at h
  split at h
  · cases h
  · cases hkind : tx.kind with
    | scDeploy => rw [hkind] at h; exact res _ h
    | scCall => rw [hkind] at h; exact call _ _ h
    | scQuery => rw [hkind] at h; exact call _ _ h
    | transfer => rw [hkind] at h; cases h
    | validatorReward =>
      rw [hkind] at h
      dsimp only [rewardOutput] at h
      split at h
      · cases h; exact fun h => by cases h
      · cases h

/-- how a transaction step can end -/
inductive ExecRun (E : Env MockWorld A) (L : Lib) (n : Nat) (index : Bytes) (tx : ScTx) (s : St MockWorld A) :
    Option (Except StepErr VMOutput) → MockWorld → Prop
  | setUp (e : StepErr) (b : Bool) (v : MockWorld) : beforeTx L tx s.world.backup = (.error (e, b), v) →
      ExecRun E L n index tx s (some (.error e)) (if b then v.rollback.2 else v.commit)
  | fuel (gas : UInt64) (v : MockWorld) (q : St MockWorld A) : beforeTx L tx s.world.backup = (.ok gas, v) →
      runKind E n index tx gas { s with world := v } = (none, q) → ExecRun E L n index tx s none q.world
  | error (gas : UInt64) (v : MockWorld) (e : StepErr) (q : St MockWorld A) : beforeTx L tx s.world.backup = (.ok gas, v) →
      runKind E n index tx gas { s with world := v } = (some (.error e), q) →
      ExecRun E L n index tx s (some (.error e)) q.world.rollback.2
  | failed (gas : UInt64) (v : MockWorld) (o : VMOutput) (q : St MockWorld A) : beforeTx L tx s.world.backup = (.ok gas, v) →
      runKind E n index tx gas { s with world := v } = (some (.ok o), q) → o.returnCode ≠ .ok →
      ExecRun E L n index tx s (some (.ok o)) q.world.rollback.2
  | done (gas : UInt64) (v : MockWorld) (o : VMOutput) (q : St MockWorld A) : beforeTx L tx s.world.backup = (.ok gas, v) →
      runKind E n index tx gas { s with world := v } = (some (.ok o), q) → o.returnCode = .ok →
      ExecRun E L n index tx s (some (if (afterTx L tx o q.world).1 then .ok o else .error .badSum)) (afterTx L tx o q.world).2.commit

theorem execute_run (n : Nat) (index : Bytes) (tx : ScTx) (s : St MockWorld A) :
    ExecRun E L n index tx s (executeTx E L n index tx s).1 (executeTx E L n index tx s).2.world := by
  unfold executeTx
  generalize hb : beforeTx L tx s.world.backup = b
  obtain ⟨b, v⟩ := b
  dsimp only
  match b, hb with
  | .error (e, true), hb => exact .setUp e true v hb
  | .error (e, false), hb => exact .setUp e false v hb
  | .ok gas, hb =>
    dsimp only
    generalize hk : runKind E n index tx gas { s with world := v } = k
    obtain ⟨k, q⟩ := k
    match k, hk with
    | none, hk => exact .fuel gas v q hb hk
    | some (.error e), hk => exact .error gas v e q hb hk
    | some (.ok o), hk =>
      dsimp only
      by_cases hok : o.returnCode = .ok
      · rw [if_pos hok]; exact .done gas v o q hb hk hok
      · rw [if_neg hok]; exact .failed gas v o q hb hk hok

/-! ### C52 -/

/-- **C52**: a transaction of a scenario that succeeds leaves as much value in the world as there was, but for the price of its gas, and
the executor's own check of the balance changes never fails. -/
theorem c52_partial (hE : E.hook = MockWorld.hook L) (hL : BalancesKept L) (hB : FairBuiltins E) (hC : NoCreateApi E) (n : Nat)
    (index : Bytes) (tx : ScTx) (hs : tx.kind.hasSender = true) {s : St MockWorld A} (hr : AtRest E s) :
    (executeTx E L n index tx s).1 ≠ some (.error .badSum) ∧
    ∀ o, (executeTx E L n index tx s).1 = some (.ok o) → o.returnCode = .ok →
      wealth (executeTx E L n index tx s).2.world = wealth s.world - gasPayment tx := by
  have h := execute_run (E := E) (L := L) n index tx s
  generalize (executeTx E L n index tx s).1 = r at h ⊢
  generalize (executeTx E L n index tx s).2.world = u at h ⊢
  cases h with
  | setUp e b v hb =>
    exact ⟨fun h => (beforeTx_error hb).1 (by cases h; rfl), fun o h => by cases h⟩
  | fuel => exact ⟨(fun h => by cases h), fun o h => by cases h⟩
  | error gas v e q hb hk => exact ⟨fun h => runKind_error hk (by cases h; rfl), fun o h => by cases h⟩
  | failed gas v o q hb hk hn => exact ⟨(fun h => by cases h), fun o h hok => by cases h; exact absurd hok hn⟩
  | done gas v o q hb hk hok =>
    have ho : totalChange o = tx.value := runKind_output hB hC n index tx gas (atRest_world hr v) hs (by rw [hk]) hok
    have hq : Reached E v q.world := by
      have := runKind_reached n index tx gas (atRest_world hr v) (fun h => by rw [h] at hs; cases hs) (by rw [hk]; exact fun h => by cases h)
      rw [hk] at this
      exact this
    obtain ⟨acc, h1, _, h2⟩ := beforeTx_ok hs hb
    have hw : SameBalances (s.world.backup.put tx.sender { acc with nonce := acc.nonce + 1, balance := acc.balance - gasPayment tx }) q.world := by
      refine SameBalances.trans ?_ (reached_balances hE hL hq)
      rcases h2 with rfl | ⟨i, rfl⟩
      · exact fun _ => rfl
      · exact hL _ i
    have hsum : (afterTx L tx o q.world).1 = true := by
      unfold afterTx
      dsimp only
      rw [hs, sumOfDeltas_eq, ho]
      simp
    rw [hsum]
    refine ⟨(fun h => by cases h), fun o' h _ => ?_⟩
    cases h
    show wealth (afterTx L tx o q.world).2 = _
    unfold afterTx
    dsimp only
    rw [if_pos hs, MockWorld.updateAccounts, updateAccounts_wealth, show (List.map _ _).sum = tx.value from ho]
    have hp := hw tx.sender
    rw [show (s.world.backup.put tx.sender { acc with nonce := acc.nonce + 1, balance := acc.balance - gasPayment tx }).account tx.sender =
      some { acc with nonce := acc.nonce + 1, balance := acc.balance - gasPayment tx } from AMap.get?_insert_self ..] at hp
    cases hx : q.world.account tx.sender with
    | none => rw [hx] at hp; cases hp
    | some x =>
      unfold MockWorld.updateBalanceWithDelta
      rw [hx]
      dsimp only
      rw [put_wealth hx, hw.wealth, put_wealth (w := s.world.backup) h1]
      show wealth s.world + _ + _ + _ = _
      dsimp only
      omega

/-! ### C51 -/

/-- the snapshots disagree with the accounts about no account's storage -/
def Agree (v : MockWorld) : Prop :=
  ∀ m ∈ v.snapshots, ∀ a o acc, m.get? a = some o → v.account a = some acc → o.storage = acc.storage

theorem revert_agree {v : MockWorld} (h : Agree v) (i : Int) : SameAccounts (v.revert i).2 v ∧ Agree (v.revert i).2 := by
  have h1 : SameAccounts (v.revert i).2 v := by
    intro a
    rcases revert_accts v i a with h1 | ⟨acc, o, h1, ⟨m, h2, h3⟩, h4⟩
    · exact h1
    · rw [h4, h1, h m h2 a o acc h3 h1]
  refine ⟨h1, fun m hm a o acc ho ha => h m ?_ a o acc ho ((h1 a).symm.trans ha)⟩
  unfold MockWorld.revert at hm
  split at hm
  · exact hm
  · split at hm
    · exact hm
    · exact List.mem_of_mem_take hm

theorem reached_accounts (hE : E.hook = MockWorld.hook L) (hL : StillBuiltins L) {w v : MockWorld} (hw : Agree w) (h : Reached E w v) :
    SameAccounts v w ∧ Agree v := by
  induction h with
  | start => exact ⟨fun _ => rfl, hw⟩
  | builtin v i _ ih =>
    rw [hE]
    have : ((MockWorld.hook L).processBuiltIn v i).2 = v := by
      show (match v.err with | some e => ((Except.error e : Except Err BuiltinOutput), v) | none => L.builtin v i).2 = v
      split
      · rfl
      · exact hL v i
    rw [this]; exact ih
  | revert v n _ ih =>
    rw [hE]
    obtain ⟨h1, h2⟩ := revert_agree ih.2 n
    exact ⟨fun a => (h1 a).trans (ih.1 a), h2⟩
  | saveCompiled v x c _ ih => rw [hE]; exact ih

/-- the same accounts, but for their storage -/
def SameButStorage (w v : MockWorld) : Prop :=
  ∀ a, (v.account a).map (fun x => { x with storage := AMap.empty }) = (w.account a).map (fun x => { x with storage := AMap.empty })

theorem SameButStorage.trans {w v u : MockWorld} (h : SameButStorage w v) (h' : SameButStorage v u) : SameButStorage w u :=
  fun a => (h' a).trans (h a)

theorem revert_butStorage (w : MockWorld) (i : Int) : SameButStorage w (w.revert i).2 := by
  intro a
  rcases revert_accts w i a with h | ⟨acc, o, h1, _, h2⟩
  · rw [h]
  · rw [h1, h2]; rfl

theorem save_butStorage (w : MockWorld) (a : Addr) (k x : Bytes) : SameButStorage w (w.saveKeyValue a k x) := by
  intro b
  unfold MockWorld.saveKeyValue
  cases h : w.account a with
  | none => rfl
  | some acc =>
    dsimp only
    show ((w.accts.insert a _).get? b).map _ = _
    rw [AMap.get?_insert]
    by_cases hb : a = b
    · subst hb; rw [if_pos rfl, h]; rfl
    · rw [if_neg hb]; rfl

/-- the world can be brought back to these accounts: they are the oldest snapshot, or there is none and nothing is stored differently -/
def Based (m : AccountMap) (v : MockWorld) : Prop :=
  (∃ rest, v.snapshots = m :: rest) ∨
  (v.snapshots = [] ∧ ∀ a o acc, m.get? a = some o → v.account a = some acc → acc.storage = o.storage)

/-- every account is among these -/
def AllIn (m : AccountMap) (v : MockWorld) : Prop := ∀ a acc, v.account a = some acc → m.get? a ≠ none

theorem AllIn.same {m : AccountMap} {w v : MockWorld} (h : AllIn m w) (hs : SameButStorage w v) : AllIn m v := by
  intro a acc ha
  have := hs a
  rw [ha] at this
  cases hw : w.account a with
  | none => rw [hw] at this; cases this
  | some x => exact h a x hw

/-- going back to the oldest snapshot restores everything that is stored -/
theorem revert_zero {m : AccountMap} {v : MockWorld} {rest : List AccountMap} (hs : v.snapshots = m :: rest) (hc : AllIn m v) :
    (v.revert 0).2.snapshots = [] ∧ ∀ a o acc, m.get? a = some o → (v.revert 0).2.account a = some acc → acc.storage = o.storage := by
  unfold MockWorld.revert
  rw [hs, if_neg (by simp), if_neg (by simp only [List.length_cons]; omega)]
  refine ⟨rfl, fun a o acc ho ha => ?_⟩
  have hok : (MockWorld.loadStorage m v.accts.entries v.accts).1 = true :=
    (load_ok _ _ _).mpr (fun p hp => hc p.1 p.2 ((AMap.mem_entries_iff _ _ _).mp hp))
  have ha : (MockWorld.loadStorage m v.accts.entries v.accts).2.get? a = some acc := ha
  rcases load_any m v.accts.entries v.accts a with h | ⟨x, y, h1, h2, h3⟩
  · rw [h] at ha
    obtain ⟨o', h1, h2⟩ := load_all m v.accts.entries v.accts v.accts.nodup hok a acc ((AMap.mem_entries_iff _ _ _).mpr ha)
    rw [ho] at h1
    cases h1
    rw [h, ha] at h2
    have h3 := congrArg WAcc.storage (Option.some.inj h2)
    exact h3
  · rw [ho] at h2
    cases h2
    rw [ha] at h3
    cases h3
    rfl

theorem revert_based {m : AccountMap} {v : MockWorld} (h : Based m v) (hc : AllIn m v) (i : Int) : Based m (v.revert i).2 := by
  rcases h with ⟨rest, h⟩ | ⟨h1, h2⟩
  · by_cases hi : i = 0
    · subst hi; exact .inr (revert_zero h hc)
    · left
      unfold MockWorld.revert
      split
      · exact ⟨rest, h⟩
      · split
        · exact ⟨rest, h⟩
        · refine ⟨rest.take (i.toNat - 1), ?_⟩
          show v.snapshots.take i.toNat = _
          rw [h]
          obtain ⟨k, hk⟩ : ∃ k, i.toNat = k + 1 := ⟨i.toNat - 1, by omega⟩
          rw [hk]
          rfl
  · right
    unfold MockWorld.revert
    rw [if_pos h1]
    exact ⟨h1, h2⟩

/-- in the end everything that is stored is restored -/
theorem rollback_based {m : AccountMap} {v : MockWorld} (h : Based m v) (hc : AllIn m v) :
    ∀ a o acc, m.get? a = some o → v.rollback.2.account a = some acc → acc.storage = o.storage := by
  rcases h with ⟨rest, h⟩ | ⟨h1, h2⟩
  · exact (revert_zero h hc).2
  · unfold MockWorld.rollback MockWorld.revert
    rw [if_pos h1]
    exact h2

theorem reached_based (hE : E.hook = MockWorld.hook L) (hL : StillBuiltins L) {m : AccountMap} {w v : MockWorld} (hb : Based m w)
    (hc : AllIn m w) (h : Reached E w v) : SameButStorage w v ∧ Based m v := by
  induction h with
  | start => exact ⟨fun _ => rfl, hb⟩
  | builtin v i _ ih =>
    rw [hE]
    have : ((MockWorld.hook L).processBuiltIn v i).2 = v := by
      show (match v.err with | some e => ((Except.error e : Except Err BuiltinOutput), v) | none => L.builtin v i).2 = v
      split
      · rfl
      · exact hL v i
    rw [this]; exact ih
  | revert v n _ ih =>
    rw [hE]
    exact ⟨ih.1.trans (revert_butStorage v n), revert_based ih.2 (hc.same ih.1) n⟩
  | saveCompiled v x c _ ih => rw [hE]; exact ih

/-- storing values keeps the oldest snapshot -/
theorem stores_based {m : AccountMap} {w v : MockWorld} {rest : List AccountMap} (hs : w.snapshots = m :: rest) (h : Stores w v) :
    SameButStorage w v ∧ ∃ rest, v.snapshots = m :: rest := by
  induction h with
  | nothing => exact ⟨fun _ => rfl, rest, hs⟩
  | value v a k x _ ih =>
    obtain ⟨h1, r, h2⟩ := ih
    refine ⟨h1.trans (save_butStorage v a k x), ?_⟩
    unfold MockWorld.saveKeyValue
    split
    · exact ⟨r, h2⟩
    · exact ⟨r ++ [_], by
        show v.snapshots ++ _ = _
        rw [h2]; rfl⟩

theorem updateBefore_charged {tx : ScTx} {w v : MockWorld} {b : Bool} (hs : tx.kind.hasSender = true)
    (h : w.updateBefore tx.sender tx.gasLimit tx.gasPrice = (b, v)) :
    OnlyPaidGas tx w v ∧ v.snapshots = w.snapshots := by
  unfold MockWorld.updateBefore at h
  cases ha : w.account tx.sender with
  | none =>
    rw [ha] at h
    cases h
    refine ⟨fun a => ?_, rfl⟩
    split
    · rename_i h; rw [h.2, ha]; rfl
    · rfl
  | some acc =>
    rw [ha] at h
    dsimp only at h
    split at h
    · rename_i hb
      cases h
      refine ⟨fun a => ?_, rfl⟩
      show (w.accts.insert _ _).get? a = _
      rw [AMap.get?_insert]
      by_cases he : a = tx.sender
      · subst he
        rw [if_pos rfl, if_pos ⟨hs, rfl⟩, ha, Option.map_some]
        unfold paidGas
        rw [if_pos (show acc.balance < gasPayment tx from hb)]
      · rw [if_neg (Ne.symm he), if_neg (fun h => he h.2)]; rfl
    · rename_i hb
      cases h
      refine ⟨fun a => ?_, rfl⟩
      show (w.accts.insert _ _).get? a = _
      rw [AMap.get?_insert]
      by_cases he : a = tx.sender
      · subst he
        rw [if_pos rfl, if_pos ⟨hs, rfl⟩, ha, Option.map_some]
        unfold paidGas
        rw [if_neg (show ¬ acc.balance < gasPayment tx from hb)]
        rfl
      · rw [if_neg (Ne.symm he), if_neg (fun h => he h.2)]; rfl

/-- the gas has been paid and values may have been stored; the oldest snapshot is what was there before -/
def Charged (tx : ScTx) (w v : MockWorld) : Prop :=
  ∃ u, OnlyPaidGas tx w u ∧ SameButStorage u v ∧ ∃ rest, v.snapshots = w.accts :: rest

theorem beforeTx_charged (hL : StoringBuiltins L) {tx : ScTx} {w v : MockWorld} (h0 : w.snapshots = []) {r : Except (StepErr × Bool) UInt64}
    (h : beforeTx L tx w.backup = (r, v)) : Charged tx w v := by
  have hw : w.backup.snapshots = w.accts :: [] := by
    show w.snapshots ++ [w.accts] = _
    rw [h0]; rfl
  have paid : ∀ b u, tx.kind.hasSender = true → w.backup.updateBefore tx.sender tx.gasLimit tx.gasPrice = (b, u) →
      OnlyPaidGas tx w u ∧ u.snapshots = w.accts :: [] := fun b u hs hu => by
    obtain ⟨h1, h2⟩ := updateBefore_charged hs hu
    exact ⟨h1, h2.trans hw⟩
  have esdt : ∀ b u i, tx.kind.hasSender = true → w.backup.updateBefore tx.sender tx.gasLimit tx.gasPrice = (b, u) →
      Charged tx w (L.builtin u i).2 := fun b u i hs hu => by
    obtain ⟨h1, h2⟩ := paid b u hs hu
    obtain ⟨h3, h4⟩ := stores_based h2 (hL u i)
    exact ⟨u, h1, h3, h4⟩
  match r, h with
  | .error (e, b), h =>
    obtain ⟨_, hs, ⟨_, h1⟩ | ⟨_, u, i, h1, rfl⟩⟩ := beforeTx_error h
    · obtain ⟨h2, h3⟩ := paid _ _ hs h1
      exact ⟨v, h2, fun _ => rfl, _, h3⟩
    · exact esdt _ u i hs h1
  | .ok gas, h =>
    by_cases hs : tx.kind.hasSender = true
    · unfold beforeTx at h
      rw [if_pos hs] at h
      generalize hq : w.backup.updateBefore tx.sender tx.gasLimit tx.gasPrice = q at h
      obtain ⟨ok, u⟩ := q
      cases ok with
      | false => cases h
      | true =>
        dsimp only at h
        cases he : tx.esdt with
        | none =>
          rw [he] at h; cases h
          obtain ⟨h2, h3⟩ := paid _ _ hs hq
          exact ⟨v, h2, fun _ => rfl, _, h3⟩
        | some x =>
          rw [he] at h
          dsimp only at h
          obtain ⟨i, h4⟩ := directEsdt_world (L := L) u tx x
          generalize directEsdt L u tx x = q at h h4
          obtain ⟨g | g, x⟩ := q
          · cases h
          · cases h
            dsimp only at h4
            rw [h4]
            exact esdt _ u i hs hq
    · unfold beforeTx at h
      rw [if_neg hs] at h
      cases h
      exact ⟨w.backup, fun a => by rw [if_neg (fun h => hs h.1)]; rfl, fun _ => rfl, _, hw⟩

theorem Charged.covered {tx : ScTx} {w v : MockWorld} (h : Charged tx w v) : AllIn w.accts v := by
  obtain ⟨u, h1, h2, _⟩ := h
  refine AllIn.same (fun a acc ha => ?_) h2
  have := h1 a
  rw [ha] at this
  intro hn
  rw [show w.account a = none from hn] at this
  split at this <;> cases this

/-- what is left after the world has been brought back -/
theorem Charged.undone {tx : ScTx} {w v u : MockWorld} (h : Charged tx w v) (hs : SameButStorage v u)
    (hm : ∀ a o acc, w.accts.get? a = some o → u.account a = some acc → acc.storage = o.storage) : OnlyPaidGas tx w u := by
  obtain ⟨x, h1, h2, _⟩ := h
  intro a
  have hx := (h2.trans hs) a
  have hp := h1 a
  have key : ∀ y : Option WAcc, (∀ z, y = some z → ∃ o, w.account a = some o ∧ z.storage = o.storage) → x.account a = y → u.account a = y := by
    intro y hy he
    rw [he] at hx
    cases hu : u.account a with
    | none =>
      rw [hu] at hx
      cases y with
      | none => rfl
      | some z => cases hx
    | some acc =>
      rw [hu] at hx
      cases y with
      | none => cases hx
      | some z =>
        obtain ⟨o, ho, hz⟩ := hy z rfl
        have h3 := hm a o acc ho hu
        have h4 : ({ acc with storage := AMap.empty } : WAcc) = { z with storage := AMap.empty } := Option.some.inj hx
        have h5 : acc = { ({ acc with storage := AMap.empty } : WAcc) with storage := acc.storage } := rfl
        rw [h4, h3, ← hz] at h5
        rw [h5]
  split
  · rename_i hc
    rw [if_pos hc] at hp
    refine key _ (fun z hz => ?_) hp
    cases hw : w.account a with
    | none => rw [hw] at hz; cases hz
    | some o => rw [hw] at hz; cases hz; exact ⟨o, rfl, rfl⟩
  · rename_i hc
    rw [if_neg hc] at hp
    exact key _ (fun z hz => ⟨z, hz, rfl⟩) hp

theorem beforeTx_shadowed {tx : ScTx} {w v : MockWorld} {e : StepErr} (h : beforeTx L tx w = (.error (e, false), v)) : e = .esdt := by
  unfold beforeTx at h
  split at h
  · generalize w.updateBefore tx.sender tx.gasLimit tx.gasPrice = q at h
    obtain ⟨ok, u⟩ := q
    cases ok with
    | false => cases h
    | true =>
      dsimp only at h
      cases he : tx.esdt with
      | none => rw [he] at h; cases h
      | some x =>
        rw [he] at h
        dsimp only at h
        generalize directEsdt L u tx x = q at h
        obtain ⟨g | g, x⟩ := q
        · cases h; rfl
        · cases h
  · cases h

theorem runKind_failed {n : Nat} {index : Bytes} {tx : ScTx} {gas : UInt64} {s t : St MockWorld A} {r : Except StepErr VMOutput}
    (h : runKind E n index tx gas s = (some r, t)) (hf : StepFailed (some r)) (hr : AtRest E s) : Reached E s.world t.world := by
  by_cases hk : tx.kind = .validatorReward
  · unfold runKind at h
    split at h
    · cases h; exact .start
    · rw [hk] at h
      dsimp only [rewardOutput] at h
      split at h
      · cases h; exact .start
      · cases h; exact absurd rfl hf
  · have := runKind_reached n index tx gas hr hk (by rw [h]; exact fun h => by cases h)
    rw [h] at this
    exact this

/-- **C51**: a transaction of a scenario that fails changes nothing but the nonce and, for the gas, the balance of its sender. The
tokens that are sent along may be moved by storing values in the accounts. Missing: built-in functions that contracts call and that
write to the world (`L'` are those), see `c51_neg`; transactions whose transfer of tokens itself fails, see `c51_esdt_neg`; and
transactions that end with a wrong sum of balance changes, see `c52_neg`. -/
theorem c51_partial {L' : Lib} (hE : E.hook = MockWorld.hook L') (hL' : StillBuiltins L') (hL : StoringBuiltins L) (n : Nat) (index : Bytes)
    (tx : ScTx) {s : St MockWorld A} (hr : AtRest E s) (h0 : s.world.snapshots = [])
    (hf : StepFailed (executeTx E L n index tx s).1) (hb : (executeTx E L n index tx s).1 ≠ some (.error .badSum))
    (he : (executeTx E L n index tx s).1 ≠ some (.error .esdt)) :
    OnlyPaidGas tx s.world (executeTx E L n index tx s).2.world := by
  have roll : ∀ v u, Charged tx s.world v → Reached E v u → OnlyPaidGas tx s.world u.rollback.2 := by
    intro v u hv hu
    obtain ⟨h1, h2⟩ := reached_based hE hL' (.inl hv.choose_spec.2.2) hv.covered hu
    exact hv.undone (h1.trans (revert_butStorage u 0)) (rollback_based h2 (hv.covered.same h1))
  have h := execute_run (E := E) (L := L) n index tx s
  generalize (executeTx E L n index tx s).1 = r at h hf hb he
  generalize (executeTx E L n index tx s).2.world = u at h ⊢
  cases h with
  | setUp e b v hq =>
    have h1 := beforeTx_charged hL h0 hq
    cases b with
    | true => exact roll v v h1 .start
    | false => exact absurd (congrArg (fun e => some (Except.error e)) (beforeTx_shadowed hq)) he
  | fuel => exact hf.elim
  | error gas v e q hq hk => exact roll v _ (beforeTx_charged hL h0 hq) (runKind_failed hk hf (atRest_world hr v))
  | failed gas v o q hq hk hn => exact roll v _ (beforeTx_charged hL h0 hq) (runKind_failed hk hf (atRest_world hr v))
  | done gas v o q hq hk hok =>
    exfalso
    split at hf
    · exact hf hok
    · rename_i h; rw [if_neg h] at hb; exact hb rfl

/-- Steps leave no snapshots behind, so that the next one finds none. -/
theorem executeTx_snapshots (n : Nat) (index : Bytes) (tx : ScTx) (s : St MockWorld A)
    (h : (executeTx E L n index tx s).1 ≠ none) : (executeTx E L n index tx s).2.world.snapshots = [] := by
  have roll : ∀ u : MockWorld, u.rollback.2.snapshots = [] := by
    intro u
    unfold MockWorld.rollback MockWorld.revert
    split
    · assumption
    · split
      · rename_i h1 h2
        exfalso
        cases hs : u.snapshots with
        | nil => exact h1 hs
        | cons x l => rw [hs] at h2; simp only [List.length_cons] at h2; omega
      · rfl
  have h1 := execute_run (E := E) (L := L) n index tx s
  generalize (executeTx E L n index tx s).1 = r at h h1
  generalize (executeTx E L n index tx s).2.world = u at h1 ⊢
  cases h1 with
  | setUp e b v _ => cases b with
    | false => rfl
    | true => exact roll v
  | fuel => exact absurd rfl h
  | error => exact roll _
  | failed => exact roll _
  | done => rfl

theorem setAccounts_snapshots (l : List SetAccount) (w : MockWorld) : (setAccounts w l).2.snapshots = w.snapshots := by
  induction l generalizing w with
  | nil => rfl
  | cons x rest ih =>
    unfold setAccounts
    have : (setAccount w x).2.snapshots = w.snapshots := by
      unfold setAccount
      dsimp only
      repeat' split
      all_goals rfl
    generalize setAccount w x = q at this ⊢
    obtain ⟨b, v⟩ := q
    cases b with
    | true => exact (ih v).trans this
    | false => exact this

/-! ### Cases -/

section
open Fixture

/-- built-in functions that do nothing; addresses of contracts start with eight zeros -/
def stillLib : Lib where
  sha256 := id
  isContractAddress a := a.take 8 = List.replicate 8 0
  payable _ := true
  openMetadata := [7, 0]
  payableMetadata := [0, 2]
  builtin w _ := (.ok { out := {} }, w)
  token _ _ _ _ := .error (.wasm 9)

/-- token transfers of fungible tokens: the amount is stored in the recipient's account -/
def tokenLib : Lib :=
  { stillLib with
    builtin := fun w i => (.ok { out := {} }, w.saveKeyValue i.recipient (i.vm.args.headD []) (i.vm.args.getD 1 [])) }

def mockEnv (L : Lib) (mods : List (Bytes × WasmModule EeiCall)) : Env MockWorld EeiCall :=
  Env.real { envWith mods with hook := MockWorld.hook L, api := fun _ => .panic }

def mockHost (w : MockWorld) : St MockWorld EeiCall :=
  { host [] with world := w, bcStack := [] }

/-- an address of a user -/
def user (n : UInt8) : Addr := List.replicate 32 n

def coded (code : Bytes) (balance : Int) : WAcc :=
  { exists_ := true, balance := balance, code := code, codeHash := code, codeMetadata := [7, 0], owner := user 1, isContract := true }

/-- a user with 1000, and two contracts -/
def payWorld : MockWorld :=
  { accts := ((AMap.empty.insert (user 1) { exists_ := true, balance := 1000 }).insert (addr 100) (coded [1] 50)).insert (addr 101) (coded [2] 5) }

/-- the first contract pays the second and fails -/
def payMock : List (Bytes × WasmModule EeiCall) :=
  [([1], mod [(f, send (addr 101) 7 <| .ret), (g, send (addr 101) 7 <| put [1] [2] <| signal),
     ([104], send (MockWorld.generateAddress (addr 100) 0) 7 <| create [99] [0, 0] 0 1000 .ret)]), ([2], mod [])]

def payStep (fn : Bytes) : ScTx :=
  { kind := .scCall, value := 20, sender := user 1, to := addr 100, function := fn, args := [], gasPrice := 1, gasLimit := 500 }

/-- the hypotheses of `c51_partial` and `c52_partial` -/
def payMock' : Env MockWorld EeiCall := (mockEnv stillLib payMock).without [.create]
theorem stillLib_still : StillBuiltins stillLib := fun _ _ => rfl
theorem stillLib_kept : BalancesKept stillLib := fun _ _ _ => rfl
theorem payMock_hook : payMock'.hook = MockWorld.hook stillLib := rfl
theorem payMock_fair : FairBuiltins payMock' := by
  intro w i b h
  have h : (match w.err with | some e => ((Except.error e : Except Err BuiltinOutput), w) | none => stillLib.builtin w i).1 = .ok b := h
  split at h
  · cases h
  · cases h; rfl
example : NoCreateApi payMock' := noCreate_without (by decide)
theorem mockHost_rest (E : Env MockWorld EeiCall) (w : MockWorld) : AtRest E (mockHost w) := ⟨.inl rfl, rfl, .inl rfl⟩

/-- a transaction that moves value -/
theorem pay_ok : ∃ o, (executeTx payMock' stillLib 5 [48] (payStep f) (mockHost payWorld)).1 = some (.ok o) ∧ o.returnCode = .ok := by
  have h : ((executeTx payMock' stillLib 5 [48] (payStep f) (mockHost payWorld)).1.any
    fun r => match r with | .ok o => decide (o.returnCode = .ok) | .error _ => false) = true := by decide +kernel
  generalize (executeTx payMock' stillLib 5 [48] (payStep f) (mockHost payWorld)).1 = r at h
  match r, h with
  | some (.ok o), h => exact ⟨o, rfl, of_decide_eq_true h⟩
example : ((executeTx payMock' stillLib 5 [48] (payStep f) (mockHost payWorld)).2.world.accts.entries.map fun p => p.2.balance) = [480, 63, 12] := by
  decide +kernel

/-- a transaction that fails after it moved value and stored something -/
theorem pay_fails : StepFailed (executeTx payMock' stillLib 5 [48] (payStep g) (mockHost payWorld)).1 ∧
    (executeTx payMock' stillLib 5 [48] (payStep g) (mockHost payWorld)).1 ≠ some (.error .badSum) := by
  have h : ((executeTx payMock' stillLib 5 [48] (payStep g) (mockHost payWorld)).1.any
    fun r => match r with | .ok o => decide (o.returnCode = .userError) | .error _ => false) = true := by decide +kernel
  generalize (executeTx payMock' stillLib 5 [48] (payStep g) (mockHost payWorld)).1 = r at h
  match r, h with
  | some (.ok o), h => exact ⟨(fun h' => by rw [of_decide_eq_true h] at h'; cases h'), (fun h => by cases h)⟩
example : paidGas (payStep g) { exists_ := true, balance := 1000 } = { exists_ := true, nonce := 1, balance := 500 } := by decide +kernel

/-- the full statement of C51, for steps that find no snapshots -/
def FailedChangesNothing (L : Lib) (E : Env MockWorld A) : Prop :=
  ∀ (n : Nat) (index : Bytes) (tx : ScTx) (s : St MockWorld A), AtRest E s → s.world.snapshots = [] →
    StepFailed (executeTx E L n index tx s).1 → OnlyPaidGas tx s.world (executeTx E L n index tx s).2.world

/-- The value that a contract sends to the address of a contract that it then fails to deploy is destroyed. The executor notices
it, reports an error, and commits the transaction nevertheless. -/
theorem c52_neg : ∃ s tx, (executeTx (mockEnv stillLib payMock) stillLib 5 [48] tx s).1 = some (.error .badSum) ∧
    wealth (executeTx (mockEnv stillLib payMock) stillLib 5 [48] tx s).2.world ≠ wealth s.world - gasPayment tx ∧
    ¬ OnlyPaidGas tx s.world (executeTx (mockEnv stillLib payMock) stillLib 5 [48] tx s).2.world := by
  refine ⟨mockHost payWorld, payStep [104], ?_, by decide +kernel, fun h => ?_⟩
  · have h : ((executeTx (mockEnv stillLib payMock) stillLib 5 [48] (payStep [104]) (mockHost payWorld)).1.any
      fun r => match r with | .error .badSum => true | _ => false) = true := by decide +kernel
    generalize (executeTx (mockEnv stillLib payMock) stillLib 5 [48] (payStep [104]) (mockHost payWorld)).1 = r at h
    match r, h with
    | some (.error .badSum), _ => rfl
  · have := congrArg (Option.map WAcc.balance) (h (addr 100))
    exact absurd this (by decide +kernel)

/-! The accounts are set with one token each, and then 5 tokens are sent together with more value than the sender owns. -/

def tokenAccounts : List SetAccount :=
  [{ address := user 1, acc := { exists_ := true, balance := 1000 }, tokens := [([84], [9])] },
   { address := user 2, acc := { exists_ := true, balance := 1000 }, tokens := [([84], [1])] }]

def tokenStep : ScTx :=
  { kind := .transfer, value := 5000, esdt := some { token := [84], value := 5, nonce := 0 }, sender := user 1, to := user 2,
    function := [], args := [], gasPrice := 1, gasLimit := 100 }

/-- the world after a `setState` step with two users that own tokens -/
def tokenWorld : MockWorld := (setAccounts {} tokenAccounts).2
example : (setAccounts {} tokenAccounts).1 = true ∧ stored tokenWorld (user 2) [84] = some [1] := by decide +kernel

theorem tokenLib_storing : StoringBuiltins tokenLib := fun _ _ => .value _ _ _ _ .nothing

/-- a transfer of tokens that is undone because the value cannot be paid; during the transaction the tokens were in the recipient's account -/
theorem tokens_back : StepFailed (executeTx payMock' tokenLib 5 [48] tokenStep (mockHost tokenWorld)).1 ∧
    (executeTx payMock' tokenLib 5 [48] tokenStep (mockHost tokenWorld)).1 ≠ some (.error .badSum) ∧
    (executeTx payMock' tokenLib 5 [48] tokenStep (mockHost tokenWorld)).1 ≠ some (.error .esdt) := by
  have h : ((executeTx payMock' tokenLib 5 [48] tokenStep (mockHost tokenWorld)).1.any
    fun r => match r with | .ok o => decide (o.returnCode = .outOfFunds) | .error _ => false) = true := by decide +kernel
  generalize (executeTx payMock' tokenLib 5 [48] tokenStep (mockHost tokenWorld)).1 = r at h
  match r, h with
  | some (.ok o), h => exact ⟨(fun h' => by rw [of_decide_eq_true h] at h'; cases h'), (fun h => by cases h), (fun h => by cases h)⟩
example : stored (beforeTx tokenLib tokenStep tokenWorld.backup).2 (user 2) [84] = some [5] := by decide +kernel
example : stored (executeTx payMock' tokenLib 5 [48] tokenStep (mockHost tokenWorld)).2.world (user 2) [84] = some [1] := by decide +kernel

/-- a third contract, and much gas -/
def againWorld : MockWorld :=
  (payWorld.put (user 1) { exists_ := true, balance := 100000 }).put (addr 102) (coded [3] 5)
def againStep (fn : Bytes) : ScTx := { payStep fn with gasLimit := 80000, value := 0 }

/-- the schedule locks 20000 gas for callbacks -/
def lockHost (w : MockWorld) : St MockWorld EeiCall := { hostLock [] with world := w, bcStack := [] }

theorem lockHost_rest (E : Env MockWorld EeiCall) (w : MockWorld) : AtRest E (lockHost w) := ⟨.inl rfl, rfl, .inl rfl⟩

/-- The first contract calls the second and then fails. The second calls the third asynchronously, and sends it tokens when the
result is there. One of the third's functions fails. -/
def againMock : List (Bytes × WasmModule EeiCall) :=
  [([1], mod [(f, callDest (addr 101) f 60000 <| signal), (g, callDest (addr 101) g 60000 <| signal)]),
   ([2], mod [(f, async (addr 102) f), (g, async (addr 102) g), (callbackName, callDestArgs (addr 102) [66, 73] [[84], [5]] 500 .ret)]),
   ([3], mod [(f, signal), (g, .ret)])]

/-- The tokens that a contract sends stay with their recipient although the transaction fails: when the call of the third contract
failed the world went back to the only snapshot and dropped it, so that none was left for the transaction. -/
theorem c51_again_neg : ((executeTx (mockEnv tokenLib againMock) tokenLib 5 [48] (againStep f) (lockHost againWorld)).1.any
      fun r => match r with | .ok o => decide (o.returnCode = .userError) | .error _ => false) = true ∧
    stored againWorld (addr 102) [84] = none ∧
    stored (executeTx (mockEnv tokenLib againMock) tokenLib 5 [48] (againStep f) (lockHost againWorld)).2.world (addr 102) [84] = some [5] := by
  decide +kernel

/-- if the third contract does not fail the tokens go back -/
example : ((executeTx (mockEnv tokenLib againMock) tokenLib 5 [48] (againStep g) (lockHost againWorld)).1.any
      fun r => match r with | .ok o => decide (o.returnCode = .userError) | .error _ => false) = true ∧
    stored (executeTx (mockEnv tokenLib againMock) tokenLib 5 [48] (againStep g) (lockHost againWorld)).2.world (addr 102) [84] = none := by
  decide +kernel

theorem againWorld_snapshots : (lockHost againWorld).world.snapshots = [] := by
  show againWorld.snapshots = []
  unfold againWorld MockWorld.put payWorld
  rfl

/-- C51 is false in general, also with built-in functions that only store values. -/
theorem c51_neg : ¬ FailedChangesNothing tokenLib (mockEnv tokenLib againMock) := by
  intro h
  obtain ⟨h1, h2, h3⟩ := c51_again_neg
  have h := h 5 [48] (againStep f) (lockHost againWorld) (lockHost_rest _ _) againWorld_snapshots
  generalize (executeTx (mockEnv tokenLib againMock) tokenLib 5 [48] (againStep f) (lockHost againWorld)).1 = r at h h1
  generalize (executeTx (mockEnv tokenLib againMock) tokenLib 5 [48] (againStep f) (lockHost againWorld)).2.world = v at h h3
  have hf : StepFailed r := by
    match r, h1 with
    | some (.ok o), h => exact fun h' => by rw [of_decide_eq_true h] at h'; cases h'
  have := h hf (addr 102)
  rw [if_neg (fun h => absurd h.2 (by decide +kernel))] at this
  unfold stored at h2 h3
  rw [this] at h3
  rw [show (lockHost againWorld).world = againWorld from rfl, h2] at h3
  cases h3

/-- a token transfer that fails half-way: the first of the two storage writes has been made -/
def halfLib : Lib := { stillLib with builtin := fun w i => (.error (.wasm 8), (tokenLib.builtin w i).2) }

/-- A failed token transfer is committed: the error is in a variable that the deferred function does not see. -/
theorem c51_esdt_neg : ¬ FailedChangesNothing halfLib (mockEnv halfLib []) := by
  intro h
  have hw : stored (executeTx (mockEnv halfLib []) halfLib 5 [48] tokenStep (mockHost tokenWorld)).2.world
    (user 2) [84] = some [5] := by decide +kernel
  have hf : ((executeTx (mockEnv halfLib []) halfLib 5 [48] tokenStep (mockHost tokenWorld)).1.any
    fun r => match r with | .error _ => true | .ok _ => false) = true := by decide +kernel
  have := h 5 [48] tokenStep (mockHost tokenWorld) (mockHost_rest _ _) (by decide +kernel) (by
    generalize (executeTx (mockEnv halfLib []) halfLib 5 [48] tokenStep (mockHost tokenWorld)).1 = r at hf
    match r, hf with
    | some (.error o), h => trivial) (user 2)
  rw [if_neg (fun h => absurd h.2 (by decide +kernel))] at this
  unfold stored at hw
  rw [this] at hw
  exact absurd hw (by decide +kernel)

end

end Arwen.Props
