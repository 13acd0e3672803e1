import Verif.Spec.Refund
import Verif.Host.Refund
import Verif.Props.Storage
import Verif.Props.Deploy
/-
C48: gas refunds accumulate.
-/
namespace Arwen.Props
open Spec
variable {χ A : Type} {E : Env χ A} {ex : Executor χ A}

/-! ### One store -/

/-- spending gas changes instances only -/
theorem useGas_insts {g : UInt64} {s t : St χ A} (h : useGas g s = (.ok (), t)) : ∃ x, t = { s with insts := x } := by
  unfold useGas at h
  rw [get_bind] at h
  unfold setPointsUsed at h
  split at h
  · simp at h
  · simp only [Prod.mk.injEq] at h
    rw [← h.2]
    exact ⟨_, rfl⟩
theorem useKeyGas_insts {k : Bytes} {s t : St χ A} (h : useKeyGas k s = (.ok (), t)) : ∃ x, t = { s with insts := x } := by
  unfold useKeyGas at h
  rw [get_bind] at h
  split at h
  · exact useGas_insts h
  · simp only [M.pure_eq, M.pure, Prod.mk.injEq] at h
    exact ⟨s.insts, h.2.symm⟩

/-- refunding a product that fits, whatever its factors -/
theorem refund_product (c : OutCtx) (a : UInt64) (n : Nat) (h0 : 0 ≤ c.cur.gasRefund)
    (h : c.cur.gasRefund + (a.toNat * n : Nat) < 2 ^ 63) :
    (c.setRefund (addU64 c.getRefund (mulU64 a (UInt64.ofNat n)))).cur.gasRefund = c.cur.gasRefund + (a.toNat * n : Nat) := by
  by_cases hn : n < 2 ^ 64
  · exact refund_mul c a n hn h0 h
  · have ha : a.toNat = 0 := by
      refine Decidable.byContradiction fun ha => ?_
      have : 2 ^ 64 * 1 ≤ n * a.toNat := Nat.mul_le_mul (by omega) (by omega)
      rw [Nat.mul_comm a.toNat n] at h
      omega
    have he : (mulU64 a (UInt64.ofNat n)).toNat = 0 := by rw [mulU64_toNat, ha]; simp
    rw [refund_add c _ h0 (by rw [he]; rw [ha] at h; simpa using h), he, ha]
    simp

/-- the refund for a change of value -/
theorem storageGas_refund {old v : Bytes} {s t : St χ A} {st : StorageStatus} (h : storageGas old v s = (.ok st, t)) (hne : old ≠ v)
    (h0 : 0 ≤ s.out.cur.gasRefund) (hlt : s.out.cur.gasRefund + storeRefund s.met.sched old v < 2 ^ 63) :
    t.out.cur.gasRefund = s.out.cur.gasRefund + storeRefund s.met.sched old v := by
  unfold storeRefund at hlt ⊢
  rw [if_neg hne] at hlt ⊢
  unfold storageGas at h
  rw [get_bind] at h
  split at h
  · rename_i h1
    rcases bind_ok h with ⟨_, u, h2, h3⟩ | ⟨_, h3⟩ | ⟨_, h3⟩ <;> simp only [M.pure_eq, M.pure, Prod.mk.injEq, reduceCtorEq] at h3
    obtain ⟨x, hx⟩ := useGas_insts h2
    rw [← h3.2, hx, h1]; simp
  split at h
  · rename_i h2
    subst h2
    have : _ = t := congrArg Prod.snd h
    rw [← this]
    exact refund_product s.out _ _ h0 hlt
  split at h
  · rename_i h3
    rcases bind_ok h with ⟨_, u, h4, h5⟩ | ⟨_, h5⟩ | ⟨_, h5⟩ <;> simp only [M.pure_eq, M.pure, Prod.mk.injEq, reduceCtorEq] at h5
    obtain ⟨x, hx⟩ := useGas_insts h4
    have : old.length - v.length = 0 := by omega
    rw [← h5.2, hx, this]; simp
  split at h
  · rcases bind_ok h with ⟨_, u, h4, h5⟩ | ⟨_, h5⟩ | ⟨_, h5⟩
    · obtain ⟨x, hx⟩ := useGas_insts h4
      have : _ = t := congrArg Prod.snd h5
      rw [← this]
      subst hx
      exact refund_product s.out _ _ h0 hlt
    · simp at h5
    · simp at h5
  · rename_i h3 h4
    simp only [M.pure_eq, M.pure, Prod.mk.injEq] at h
    have : old.length - v.length = 0 := by omega
    rw [← h.2, this]; simp

theorem setStorage_refund {k v : Bytes} {s t : St χ A} {r : StorageStatus × Option Err} (h : setStorage E k v s = (.ok r, t))
    (h0 : 0 ≤ s.out.cur.gasRefund) (hlt : s.out.cur.gasRefund + refundOfStore E s k v false < 2 ^ 63) :
    t.out.cur.gasRefund = s.out.cur.gasRefund + refundOfStore E s k v false := by
  unfold refundOfStore at hlt ⊢
  unfold setStorage at h
  rw [get_bind] at h
  split at h
  · rename_i hro
    simp only [M.pure_eq, M.pure, Prod.mk.injEq] at h
    rw [if_pos (.inl hro), ← h.2]; simp
  rename_i hro
  split at h
  · rename_i hrk
    simp only [M.pure_eq, M.pure, Prod.mk.injEq] at h
    rw [if_pos (.inr (.inl (List.isPrefixOf_iff_prefix.mp hrk))), ← h.2]; simp
  rename_i hrk
  split at h
  · rename_i hpk
    simp only [M.pure_eq, M.pure, Prod.mk.injEq] at h
    rw [Bool.and_eq_true] at hpk
    rw [if_pos (.inr (.inr ⟨List.isPrefixOf_iff_prefix.mp hpk.1, hpk.2, rfl⟩)), ← h.2]; simp
  rename_i hpk
  have hc : ¬ (s.rt.cur.readOnly = true ∨ E.elrondPrefix <+: k ∨ (arwenPrefix <+: k ∧ s.sto.protect = true ∧ false = false)) := by
    rintro (hc | hc | hc)
    · exact hro hc
    · exact hrk (List.isPrefixOf_iff_prefix.mpr hc)
    · exact hpk (by rw [Bool.and_eq_true]; exact ⟨List.isPrefixOf_iff_prefix.mpr hc.1, hc.2.1⟩)
  rw [if_neg hc] at hlt ⊢
  rcases bind_ok h with ⟨_, s1, h1, h⟩ | ⟨_, h⟩ | ⟨_, h⟩
  rotate_left
  · simp at h
  · simp at h
  obtain ⟨x, hx⟩ := useKeyGas_insts h1
  rcases bind_ok h with ⟨old, s2, h2, h⟩ | ⟨_, h⟩ | ⟨_, h⟩
  rotate_left
  · simp at h
  · simp at h
  have hold := (readStorage_view (E := E) s1.sto.addr k s1).1
  obtain ⟨o, ho2, _, _⟩ := readStorage_grows (E := E) s1.sto.addr k s1
  have hr := held_readStorage (E := E) (g0 := s1.out.cur.gasRefund) s1.sto.addr k s1 rfl
  simp only [getStorageUnmetered, M.lift, Prod.mk.injEq, Res.ok.injEq] at h2
  rw [h2.1] at hold
  rw [h2.2] at ho2 hr
  have hv : view E s1 s1.sto.addr k = view E s s.sto.addr k := by subst hx; rfl
  rw [hv] at hold
  rw [← hold] at hlt ⊢
  have g2 : s2.out.cur.gasRefund = s.out.cur.gasRefund := by
    have : s2.out.cur.gasRefund = s1.out.cur.gasRefund := hr
    rw [this, hx]
  have m2 : s2.met = s.met := by rw [ho2, hx]
  split at h
  · rename_i heq
    rw [get_bind] at h
    rcases bind_ok h with ⟨_, s3, h3, h⟩ | ⟨_, h⟩ | ⟨_, h⟩ <;> simp only [M.pure_eq, M.pure, Prod.mk.injEq, reduceCtorEq] at h
    obtain ⟨y, hy⟩ := useGas_insts h3
    rw [← h.2, hy]
    simp only [storeRefund, if_pos heq]
    simpa using g2
  · rename_i heq
    rw [modify_bind] at h
    rcases bind_ok h with ⟨_, s3, h3, h⟩ | ⟨_, h⟩ | ⟨_, h⟩ <;> simp only [M.pure_eq, M.pure, Prod.mk.injEq, reduceCtorEq] at h
    have := storageGas_refund h3 heq (by show 0 ≤ s2.out.cur.gasRefund; rw [g2]; exact h0)
      (by show s2.out.cur.gasRefund + (storeRefund s2.met.sched old v : Int) < 2 ^ 63; rw [g2, m2]; exact hlt)
    rw [← h.2, this]
    show s2.out.cur.gasRefund + (storeRefund s2.met.sched old v : Int) = _
    rw [g2, m2]

theorem setProtected_refund {k v : Bytes} {s t : St χ A} {r : StorageStatus × Option Err} (h : setProtectedStorage E k v s = (.ok r, t))
    (h0 : 0 ≤ s.out.cur.gasRefund) (hlt : s.out.cur.gasRefund + refundOfStore E s k v true < 2 ^ 63) :
    t.out.cur.gasRefund = s.out.cur.gasRefund + refundOfStore E s k v true := by
  unfold setProtectedStorage at h
  rw [modify_bind] at h
  simp only [M.deferred] at h
  split at h
  · rename_i a u h1
    have he : refundOfStore E { s with sto := { s.sto with protect := false } } k v false = refundOfStore E s k v true := by
      unfold refundOfStore
      have : ∀ p : Prop, (p ∧ false = true ∧ false = false) ↔ (p ∧ s.sto.protect = true ∧ true = false) := by simp
      simp only [Bool.false_eq_true, false_and, and_false, Bool.true_eq_false]
      rfl
    have := setStorage_refund h1 h0 (by rw [he]; exact hlt)
    rw [he] at this
    have h2 : _ = t := congrArg Prod.snd h
    rw [← h2]
    exact this
  · split at h <;> simp at h
  · simp at h

/-! ### Commands, API functions, contract functions -/

/-- the other commands do not change the refund -/
theorem held_runCmd {g0 : Int} (c : Cmd) (h1 : c.power ≠ some .call) (h2 : c.power ≠ some .readOnly) (h3 : c.power ≠ some .create)
    (h4 : c.power ≠ some .writeStorage) : Keeps (Held g0) (runCmd E ex c) := by
  cases c <;> first | (exfalso; first | exact h1 rfl | exact h2 rfl | exact h3 rfl | exact h4 rfl) | skip
  case useGas n => exact held_useGas n
  case memStore off data => exact held_memStore off data
  case failExecution e => exact keep_bind (keep_modify fun _ h => h) fun _ => held_setBreakpoint _
  case signalUserError m => exact keep_bind (keep_modify fun _ h => h) fun _ => held_setBreakpoint _
  case executeAsyncCall a d v => exact held_executeAsyncCall a d v
  case addAsyncContextCall id c => exact keep_modify fun _ h => h
  case setAsyncContextCallback id cb =>
    refine keep_lift fun s h => ?_
    unfold setAsyncContextCallback
    dsimp only
    split <;> exact h
  case getBalance a => exact keep_lift fun s h => held_getBalance a s h
  case getCode a => exact keep_lift fun s h => held_getCode a s h
  case getStorage k => exact held_getStorage k
  case getStorageUnmetered k => exact held_getStorageUnmetered k
  case getStorageFromAddress a k => exact held_getStorageFromAddress a k
  case finish d => exact keep_modify fun _ h => h
  case writeLog a t d =>
    refine keep_modify fun s h => ?_
    unfold Held OutCtx.writeLog
    split <;> exact h
  case transfer d sn gl gk v data ct => exact keep_lift fun s h => held_transfer d sn gl gk v data ct s h
  case transferESDT d sn tok n v ci => exact held_transferESDT d sn tok n v ci
  case bigGet h => exact keep_lift fun _ h => h
  case bigSet h v => exact keep_modify fun _ h => h
  case bigPut v => exact keep_lift fun _ h => h
  case revertSnapshot n => exact keep_modify fun _ h => h
  case outOfGas => exact held_setBreakpoint _

/-- One command of an API function changes the refund by exactly what is due for it. -/
theorem runCmd_refund {c : Cmd} (h1 : c.power ≠ some .call) (h2 : c.power ≠ some .readOnly) (h3 : c.power ≠ some .create)
    {s t : St χ A} {r : c.Resp} (h : runCmd E ex c s = (.ok r, t)) (h0 : 0 ≤ s.out.cur.gasRefund)
    (hlt : s.out.cur.gasRefund + refundDue E s c < 2 ^ 63) : t.out.cur.gasRefund = s.out.cur.gasRefund + refundDue E s c := by
  by_cases h4 : c.power = some .writeStorage
  · cases c <;> first | (exfalso; simp [Cmd.power] at h4; done) | skip
    case setStorage k v => exact setStorage_refund h h0 hlt
    case setTimeLock k v => exact setProtected_refund h h0 hlt
  · have : t.out.cur.gasRefund = s.out.cur.gasRefund := held_runCmd c h1 h2 h3 h4 s r t rfl h
    have h5 : refundDue E s c = 0 := by
      cases c <;> first | rfl | exact absurd rfl h4
    rw [this, h5]; simp

theorem interp_refund {α : Type} : ∀ {p : Free χ A α} {s t : St χ A} {r : α},
    (∀ c, MayRun c p → c.power ≠ some .call ∧ c.power ≠ some .readOnly ∧ c.power ≠ some .create) →
    interp E ex p s = (.ok r, t) → 0 ≤ s.out.cur.gasRefund → s.out.cur.gasRefund + refundsOfApi E ex p s < 2 ^ 63 →
    t.out.cur.gasRefund = s.out.cur.gasRefund + refundsOfApi E ex p s
  | .pure a, s, t, r, _, h, _, _ => by
    simp only [interp, M.pure_eq, M.pure, Prod.mk.injEq] at h
    rw [← h.2]; simp [refundsOfApi]
  | .ask k, s, t, r, hn, h, h0, hlt => interp_refund (p := k s) (fun c hc => hn c ⟨s, hc⟩) h h0 hlt
  | .op c k, s, t, r, hn, h, h0, hlt => by
    rcases bind_ok h with ⟨a, u, h1, h2⟩ | ⟨_, h2⟩ | ⟨_, h2⟩
    rotate_left
    · simp at h2
    · simp at h2
    obtain ⟨n1, n2, n3⟩ := hn c (.inl rfl)
    simp only [refundsOfApi, h1] at hlt ⊢
    have h3 := runCmd_refund n1 n2 n3 h1 h0 (by omega)
    have h4 := interp_refund (p := k a) (fun c hc => hn c (.inr ⟨a, hc⟩)) h2 (by omega) (by omega)
    rw [h4, h3]; omega
  | .panic, s, t, r, _, h, _, _ => by simp [interp, M.panic] at h

/-- C48, one contract function: the refund accumulated while it runs is the sum of what is due for the stores it makes.
Missing: the functions of contracts that it calls. -/
theorem c48_function_partial (hn : NoNestedApi E) (i : Nat) : ∀ {p : Prog A} {s t : St χ A} {b : Bool},
    runProg E ex i p s = (.ok b, t) → 0 ≤ s.out.cur.gasRefund → s.out.cur.gasRefund + refundsOf E ex i p s < 2 ^ 63 →
    t.out.cur.gasRefund = s.out.cur.gasRefund + refundsOf E ex i p s
  | .ret, s, t, b, h, _, _ => by
    simp only [runProg, M.pure_eq, M.pure, Prod.mk.injEq] at h
    rw [← h.2]; simp [refundsOf]
  | .trap, s, t, b, h, _, _ => by
    simp only [runProg, M.pure_eq, M.pure, Prod.mk.injEq] at h
    rw [← h.2]; simp [refundsOf]
  | .burn n k, s, t, b, h, h0, hlt => by
    simp only [runProg] at h
    simp only [refundsOf, runProg] at hlt ⊢
    rw [get_bind, modify_bind] at h hlt ⊢
    by_cases hc : (s.insts i).points.toNat + n.toNat > (s.insts i).limit.toNat
    · simp only [if_pos hc] at h hlt ⊢
      have : _ = t := congrArg Prod.snd h
      rw [← this]
      simp [M.pure_eq, M.pure, M.bind_eq, M.bind, M.modify, St.modInst]
    · simp only [if_neg hc, M.pure_eq, M.pure] at h hlt ⊢
      exact c48_function_partial hn i (p := k) h h0 hlt
  | .call a k, s, t, b, h, h0, hlt => by
    simp only [runProg] at h
    rcases bind_ok h with ⟨r, u, h1, h2⟩ | ⟨_, h2⟩ | ⟨_, h2⟩
    rotate_left
    · simp at h2
    · simp at h2
    simp only [refundsOf, h1] at hlt ⊢
    have h3 := interp_refund (fun c hc => hn c ⟨a, hc⟩) h1 h0 (by omega)
    rw [get_bind] at h2
    by_cases hb : (u.insts i).bp = .none
    · simp only [hb, ne_eq, not_true_eq_false, if_false, if_true] at h2 hlt ⊢
      have h4 := c48_function_partial hn i (p := k r) h2 (by omega) (by omega)
      rw [h4, h3]; omega
    · simp only [if_neg hb] at hlt ⊢
      rw [if_pos hb] at h2
      simp only [M.pure_eq, M.pure, Prod.mk.injEq] at h2
      rw [← h2.2, h3]; omega
  | .load off len k, s, t, b, h, h0, hlt => by
    simp only [runProg] at h
    rw [get_bind] at h
    simp only [refundsOf] at hlt ⊢
    split at h
    · rename_i hc
      rw [if_pos hc] at hlt ⊢
      exact c48_function_partial hn i h h0 hlt
    · rename_i hc
      rw [if_neg hc]
      simp only [M.pure_eq, M.pure, Prod.mk.injEq] at h
      rw [← h.2]; simp
  | .store off bs k, s, t, b, h, h0, hlt => by
    simp only [runProg] at h
    simp only [refundsOf, runProg] at hlt ⊢
    rw [get_bind] at h hlt ⊢
    by_cases hc : off + bs.length ≤ (s.insts i).mem.length
    · simp only [if_pos hc, modify_bind, M.pure_eq, M.pure] at h hlt ⊢
      exact c48_function_partial hn i (p := k) h h0 hlt
    · simp only [if_neg hc, M.pure_eq, M.pure] at h hlt ⊢
      simp only [Prod.mk.injEq] at h
      rw [← h.2]; simp

/-! ### Calls on the same context -/

theorem updateSCGasUsed_refund (s : St χ A) : (updateSCGasUsed s).out.cur.gasRefund = s.out.cur.gasRefund := by
  unfold updateSCGasUsed
  exact getAcc_refund s.out _
theorem getVMOutput_refund (s : St χ A) : (getVMOutput E s).2.out.cur.gasRefund = s.out.cur.gasRefund := by
  have h1 : (setGasUsed (updateSCGasUsed (readyState s))).2.out.cur.gasRefund = s.out.cur.gasRefund :=
    updateSCGasUsed_refund (readyState s)
  rcases getVMOutput_cases (E := E) s with h | h
  · rw [h]; exact h1
  · rw [h]
    exact h1

/-- A contract called on the caller's context starts with the caller's refund, and what it has accumulated when it returns
without an error is the caller's from then on. -/
theorem c48_same_partial {i i' : CallInput} {s t : St χ A} :
    (enterSame E i s = (.ok i', t) → t.out.cur.gasRefund = s.out.cur.gasRefund) ∧
    (finishSame E none s = (.ok (), t) → s.out.cur.returnCode = .ok → t.out.cur.gasRefund = s.out.cur.gasRefund) := by
  constructor
  · intro h
    have h1 : Tri (Held s.out.cur.gasRefund) (enterSame E i) (fun _ => Held s.out.cur.gasRefund) := by
      unfold enterSame
      refine keep_bind (keep_modify fun _ h => h) fun _ => tri_get' fun u => ?_
      refine keep_bind (keep_modify fun _ h => h) fun _ => keep_bind (keep_modify fun _ h => h) fun _ => ?_
      refine keep_bind ?_ fun vm => keep_bind (keep_modify fun v h => ?_) fun _ => keep_pure
      · intro v a w hv hw
        have : w.out = v.out := by
          unfold meterInit at hw
          split at hw <;> (simp only [Prod.mk.injEq] at hw; rw [← hw.2])
        unfold Held; rw [this]; exact hv
      · exact h
    exact h1 s i' t rfl h
  · intro h hc
    rw [finishSame_ok s hc] at h
    obtain ⟨r, ins, h2, _⟩ := restoreGas_only (getVMOutput E s).1.gasRemaining (popSameOk (getVMOutput E s).2)
    rw [h2, Prod.mk.injEq] at h
    rw [← h.2]
    show (popSameOk (getVMOutput E s).2).out.cur.gasRefund = s.out.cur.gasRefund
    unfold popSameOk
    rw [(rtPopSet_keeps _).1]
    exact getVMOutput_refund s

/-! ### The claim fails for calls of other contracts -/

section
open Fixture

/-- contract 100 clears its entry and then calls contract 101 -/
def clearMods : List (Bytes × WasmModule EeiCall) :=
  [([1], mod [(f, put [107] [] <| callDest (addr 101) f 10000 .ret), (g, put [107] [] .ret),
      (g ++ f, put [107] [1, 2] <| put [107] [] .ret)]),
   ([2], mod [(f, .ret)])]
def clearEnv : Env World EeiCall := envWith clearMods
def clearHost : St World EeiCall :=
  host ((node [(addr 100, contract [1]), (addr 101, contract [2])]).map (fun c =>
    { c with storage := AMap.empty.insert (addr 100, [107]) [1, 2, 3, 4, 5] }))

/-- C48 does not hold: a contract clears an entry and then calls another contract, which does nothing. The entry is reported as
cleared, but no refund. -/
theorem c48_neg : ∃ (E : Env World EeiCall) (n : Nat) (tx : Tx) (s : St World EeiCall) (o : VMOutput) (a : Addr) (k : Bytes),
    E.api = eei E ∧ AtRest E s ∧ Outputs E n tx s o ∧ o.returnCode = .ok ∧ pending o a k = some [] ∧
    0 < storeRefund s.met.sched (E.hook.storageData s.world a k) [] ∧ o.gasRefund = 0 := by
  have h : checkOut (runTx clearEnv 5 (callTx (addr 1) (addr 100) f) clearHost) (fun o => decide (o.returnCode = .ok ∧
    pending o (addr 100) [107] = some [] ∧ o.gasRefund = 0)) = true := by decide +kernel
  obtain ⟨o, h1, h2⟩ := checkOut_elim h
  obtain ⟨h2, h3, h4⟩ := of_decide_eq_true h2
  exact ⟨clearEnv, 5, _, clearHost, o, addr 100, [107], rfl, ⟨.inl rfl, rfl, .inl rfl⟩, h1, h2, h3, by decide +kernel, h4⟩

theorem noNested_without {E : Env χ EeiCall} {l : List Power} (h1 : .call ∈ l) (h2 : .readOnly ∈ l) (h3 : .create ∈ l) :
    NoNestedApi (E.without l) := fun _ hc =>
  ⟨fun h => not_runs_without h h1 hc, fun h => not_runs_without h h2 hc, fun h => not_runs_without h h3 hc⟩

/-- the same contracts without calls of others, and the state in which a function of contract 100 starts -/
def plainEnv : Env World EeiCall := clearEnv.without [.call, .readOnly, .create]
def plainStart : St World EeiCall := (startInstance plainEnv [1] 100000 false (txStart plainEnv (callTx (addr 1) (addr 100) g) clearHost)).2
def twoStores : P := put [107] [1, 2] <| put [107] [] .ret
example : NoNestedApi plainEnv := noNested_without (by decide) (by decide) (by decide)
example : (match runProg plainEnv (execN plainEnv 3) 0 twoStores plainStart with
    | (.ok b, t) => decide (b = true ∧ plainStart.out.cur.gasRefund = 0 ∧ refundsOf plainEnv (execN plainEnv 3) 0 twoStores plainStart = 5 ∧
        t.out.cur.gasRefund = 5) | _ => false) = true := by decide +kernel

/-- without the call the refund is reported; it is added up over several stores -/
example : checkOut (runTx clearEnv 5 (callTx (addr 1) (addr 100) g) clearHost) (fun o => decide (o.returnCode = .ok ∧ o.gasRefund = 5)) = true := by
  decide +kernel
example : checkOut (runTx clearEnv 5 (callTx (addr 1) (addr 100) (g ++ f)) clearHost) (fun o => decide (o.returnCode = .ok ∧ o.gasRefund = 5)) = true := by
  decide +kernel
end

end Arwen.Props
