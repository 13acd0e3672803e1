import Verif.Spec.Async
import Verif.Spec.Calls
import Verif.Spec.Effects
import Verif.Props.Storage
import Verif.Props.Gas
import Verif.Props.Value
/-
C28 (gas locked for callbacks), C29 (callbacks get the outcome), C31 (gas of groups of asynchronous calls).
-/
namespace Arwen.Props
open Arwen Spec
variable {χ A : Type} {E : Env χ A}

/-! ### C31 -/

theorem gasNeeded_spec (gl : UInt64) : ∀ (cs : List AsyncGeneratedCall) (acc : UInt64), acc.toNat ≤ gl.toNat →
    (∃ n, gasNeeded gl acc cs = .ok n ∧ acc.toNat + requestedGas cs ≤ gl.toNat ∧ n.toNat = acc.toNat + requestedGas cs) ∨
    (∃ e, gasNeeded gl acc cs = .error e ∧ gl.toNat < acc.toNat + requestedGas cs) := by
  intro cs
  induction cs with
  | nil => intro acc h; exact .inl ⟨acc, rfl, by simpa [requestedGas] using h, by simp [requestedGas]⟩
  | cons c cs ih =>
    intro acc h
    have hr : requestedGas (c :: cs) = c.providedGas.toNat + requestedGas cs := by simp [requestedGas]
    have hlt := gl.toNat_lt
    unfold gasNeeded
    rw [addU64E_spec, hr]
    by_cases ho : acc.toNat + c.providedGas.toNat < 2 ^ 64
    · rw [if_pos ho]
      have hs : (acc + c.providedGas).toNat = acc.toNat + c.providedGas.toNat := by
        rw [UInt64.toNat_add]; exact Nat.mod_eq_of_lt ho
      by_cases hg : acc + c.providedGas > gl
      · right
        refine ⟨_, if_pos hg, ?_⟩
        rw [gt_iff_lt, UInt64.lt_iff_toNat_lt] at hg
        omega
      · have hle : (acc + c.providedGas).toNat ≤ gl.toNat := by
          rw [gt_iff_lt, UInt64.lt_iff_toNat_lt] at hg; omega
        have := ih _ hle
        rw [hs] at this
        simp only [if_neg hg]
        rcases this with ⟨n, h1, h2, h3⟩ | ⟨e, h1, h2⟩
        · exact .inl ⟨n, h1, by omega, by omega⟩
        · exact .inr ⟨e, h1, by omega⟩
    · rw [if_neg ho]
      exact .inr ⟨_, rfl, by omega⟩

theorem openCalls_eq (cs : List AsyncGeneratedCall) : (cs.filter (fun c => c.providedGas = 0)).length = openCalls cs := by
  unfold openCalls
  congr 2
  funext c
  rw [decide_eq_decide, ← UInt64.toNat_inj]
  rfl

theorem openCalls_le (cs : List AsyncGeneratedCall) : openCalls cs ≤ cs.length := List.length_filter_le _ _

/-- C31. The assignment succeeds exactly if the requested amounts fit in the gas left, with something left over for the
calls that request nothing. Then the groups, their callbacks and their calls are as before, except that each call has the
fair limit. -/
theorem c31_assign (gas : UInt64) (info : AsyncContextInfo) (hn : (allCalls info).length < 2 ^ 64) :
    if requestedGas (allCalls info) ≤ gas.toNat ∧ (openCalls (allCalls info) ≠ 0 → requestedGas (allCalls info) < gas.toNat)
    then ∃ info', setupCallsGas gas info = .ok info' ∧ info'.caller = info.caller ∧ info'.returnData = info.returnData ∧
      info'.contexts.entries = info.contexts.entries.map fun p => (p.1, { p.2 with calls := p.2.calls.map fun c =>
        { c with gasLimit := UInt64.ofNat (fairLimit gas.toNat (allCalls info) c) } })
    else ∃ e, setupCallsGas gas info = .error e := by
  have hz : (0 : UInt64).toNat = 0 := rfl
  have hs := gasNeeded_spec gas (allCalls info) 0 (Nat.zero_le _)
  have hle := openCalls_le (allCalls info)
  rw [hz, Nat.zero_add] at hs
  unfold setupCallsGas
  have e1 : info.contexts.entries.flatMap (fun p => p.2.calls) = allCalls info := rfl
  simp only [e1, openCalls_eq]
  rcases hs with ⟨n, h1, h2, h3⟩ | ⟨e, h1, h2⟩
  · rw [h1]
    simp only
    by_cases hc : openCalls (allCalls info) ≠ 0 → requestedGas (allCalls info) < gas.toNat
    · rw [if_pos ⟨h2, hc⟩, if_neg (by
        rintro ⟨h4, h5⟩
        rw [UInt64.le_iff_toNat_le] at h5
        have := hc h4
        omega)]
      refine ⟨_, rfl, rfl, rfl, ?_⟩
      show List.map _ _ = _
      congr 1
      funext p
      dsimp only
      congr 3
      funext c
      congr 1
      unfold fairLimit
      by_cases h0 : c.providedGas = 0
      · rw [if_pos h0, if_pos (by rw [h0]; rfl), ← UInt64.toNat_inj, UInt64.toNat_div,
          UInt64.toNat_sub_of_le _ _ (by rw [UInt64.le_iff_toNat_le]; omega), h3]
        have hlt := gas.toNat_lt
        rw [UInt64.toNat_ofNat_of_lt' (show openCalls (allCalls info) < UInt64.size by simp only [UInt64.size]; omega),
          UInt64.toNat_ofNat_of_lt' (show _ < UInt64.size from
            Nat.lt_of_le_of_lt (Nat.div_le_self _ _) (by simp only [UInt64.size]; omega))]
      · rw [if_neg h0, if_neg (fun h : c.providedGas.toNat = 0 => h0 (UInt64.toNat_inj.mp h)), UInt64.ofNat_toNat]
    · rw [if_neg (fun h => hc h.2), if_pos]
      · exact ⟨_, rfl⟩
      · obtain ⟨h4, h5⟩ := Classical.not_imp.mp hc
        exact ⟨h4, by rw [UInt64.le_iff_toNat_le]; omega⟩
  · rw [h1, if_neg (fun h => absurd h.1 (by omega))]
    exact ⟨_, rfl⟩

theorem sum_limits (share : Nat) (cs : List AsyncGeneratedCall) :
    (cs.map fun c => if c.providedGas.toNat = 0 then share else c.providedGas.toNat).sum = requestedGas cs + openCalls cs * share := by
  induction cs with
  | nil => simp [requestedGas, openCalls]
  | cons c cs ih =>
    simp only [List.map_cons, List.sum_cons, ih, requestedGas, openCalls, List.filter_cons]
    by_cases h : c.providedGas.toNat = 0
    · simp only [h, decide_true, if_true, List.length_cons, Nat.zero_add, Nat.add_mul, Nat.one_mul]; omega
    · simp only [h, decide_false, if_false, Bool.false_eq_true]; omega

/-- C31. Together the limits are at most the gas left. If there are calls that request nothing, less than one unit of gas
per such call is not given away. -/
theorem c31_sum (gas : UInt64) (info info' : AsyncContextInfo) (hn : (allCalls info).length < 2 ^ 64)
    (h : setupCallsGas gas info = .ok info') :
    (limits (allCalls info')).sum ≤ gas.toNat ∧
    (openCalls (allCalls info) ≠ 0 → gas.toNat < (limits (allCalls info')).sum + openCalls (allCalls info)) := by
  have ha := c31_assign gas info hn
  split at ha
  · rename_i hc
    obtain ⟨i2, h1, _, _, h2⟩ := ha
    rw [h] at h1
    cases h1
    have e1 : limits (allCalls info') = (allCalls info).map (fairLimit gas.toNat (allCalls info)) := by
      unfold limits
      conv => lhs; unfold allCalls
      rw [h2]
      rw [List.flatMap_map, List.map_flatMap]
      conv => rhs; arg 2; unfold allCalls
      rw [List.map_flatMap]
      congr 1
      funext p
      rw [List.map_map]
      congr 1
      funext c
      refine UInt64.toNat_ofNat_of_lt' ?_
      have hlt := gas.toNat_lt
      have := c.providedGas.toNat_lt
      show fairLimit _ _ _ < UInt64.size
      unfold fairLimit
      simp only [UInt64.size]
      split
      · exact Nat.lt_of_le_of_lt (Nat.div_le_self _ _) (by omega)
      · omega
    have e2 := sum_limits ((gas.toNat - requestedGas (allCalls info)) / openCalls (allCalls info)) (allCalls info)
    have e3 : (limits (allCalls info')).sum = requestedGas (allCalls info) +
        openCalls (allCalls info) * ((gas.toNat - requestedGas (allCalls info)) / openCalls (allCalls info)) := by
      rw [e1]; exact e2
    rw [e3]
    have d1 := Nat.mul_div_le (gas.toNat - requestedGas (allCalls info)) (openCalls (allCalls info))
    refine ⟨by omega, fun h0 => ?_⟩
    have d2 := Nat.lt_mul_div_succ (gas.toNat - requestedGas (allCalls info)) (Nat.pos_of_ne_zero h0)
    rw [Nat.mul_add, Nat.mul_one] at d2
    omega
  · obtain ⟨e, h1⟩ := ha
    rw [h] at h1
    cases h1

/-- two groups; two calls request 30 and 20, three request nothing -/
def groups : AsyncContextInfo :=
  let c (g : UInt64) : AsyncGeneratedCall :=
    { destination := [1], data := [], valueBytes := [], successCallback := [], errorCallback := [], providedGas := g }
  { contexts := (AMap.empty.insert [1] { calls := [c 30, c 0] }).insert [2] { calls := [c 0, c 20, c 0] } }

example : (match setupCallsGas 100 groups with
    | .ok i => decide ((limits (allCalls i)).sum = 98 ∧ (limits (allCalls i)).Perm [30, 20, 16, 16, 16])
    | _ => false) = true := by decide +kernel
example : (match setupCallsGas 50 groups, setupCallsGas 49 groups with
    | .error e, .error e' => decide (e = .notEnoughGas ∧ e' = .notEnoughGas) | _, _ => false) = true := by decide +kernel

/-! ### C28 -/

theorem gasLeft_toNat (s : St χ A) : s.gasLeft.toNat = s.met.cur.gasForExecution.toNat - s.pointsUsed.toNat := by
  unfold St.gasLeft
  split
  · rename_i h; rw [UInt64.lt_iff_toNat_lt] at h; simp; omega
  · rename_i h; rw [UInt64.lt_iff_toNat_lt] at h
    rw [UInt64.toNat_sub_of_le _ _ (by rw [UInt64.le_iff_toNat_le]; omega)]

theorem gasLeft_spend {s : St χ A} {i : Nat} (hi : s.rt.instance_ = some i) (hg : s.met.cur.gasForExecution.toNat < 2 ^ 63) (g : UInt64) :
    (s.spend g).gasLeft.toNat = s.gasLeft.toNat - g.toNat := by
  have h := (Paid.spend hi g).points
  rw [gasLeft_toNat, gasLeft_toNat, St.spend_met, h]
  unfold maxPoints
  omega

theorem useGasBounded_run {s : St χ A} {i : Nat} (hi : s.rt.instance_ = some i) (g : UInt64) :
    useGasBounded g s = if s.gasLeft ≤ g then (.ok (some .notEnoughGas), s) else (.ok none, s.spend g) := by
  unfold useGasBounded
  rw [get_bind]
  split
  · rfl
  · simp only [M.bind_eq, M.bind, useGas_run s g hi]; rfl

/-- the state after an asynchronous call is registered -/
def registered (s : St χ A) (a : Addr) (d v : Bytes) (lock : UInt64) : St χ A :=
  (s.setAsyncCallInfo { destination := a, data := d, gasLimit := s.gasLeft, gasLocked := lock, valueBytes := v }).withBp .asyncCall

theorem callback_needed (s : St χ A) (i : Nat) :
    ((s.insts i).mod.fn callbackName).isSome = true ↔ HasCallback s i := by
  have e : callbackName = "callBack".toUTF8.data.toList := by decide +kernel
  unfold WasmModule.fn HasCallback
  rw [Option.isSome_map, List.find?_isSome, e]
  simp only [decide_eq_true_eq]

theorem computeGasLocked_toNat (s : St χ A) : s.computeGasLocked.toNat = min (reservation s true) (2 ^ 64 - 1) := by
  unfold St.computeGasLocked reservation
  simp only [if_true]
  rw [addU64_toNat, addU64_toNat]
  split
  · rw [mulU64_toNat]; omega
  · simp only [UInt64.toNat_zero]; omega

theorem executeAsyncCall_run {s : St χ A} {i : Nat} (hi : s.rt.instance_ = some i) (a : Addr) (d v : Bytes) :
    executeAsyncCall a d v s =
      (let step := s.met.sched.api .asyncCallStep
       let s1 := s.spend step
       if s.gasLeft ≤ step then (.ok (some .notEnoughGas), s)
       else if ((s.insts i).mod.fn callbackName).isSome || !s.flags.dynGasLock then
         if s1.gasLeft ≤ s.computeGasLocked then (.ok (some .notEnoughGas), s1)
         else (.ok none, registered (s1.spend s.computeGasLocked) a d v s.computeGasLocked)
       else (.ok none, registered s1 a d v 0)) := by
  have hi1 : (s.spend (s.met.sched.api .asyncCallStep)).rt.instance_ = some i := hi
  have hm : ((s.spend (s.met.sched.api .asyncCallStep)).insts i).mod = (s.insts i).mod := by
    simp only [St.spend]; split <;> rfl
  have hl : (s.spend (s.met.sched.api .asyncCallStep)).computeGasLocked = s.computeGasLocked := rfl
  have hreg : ∀ (u : St χ A) (lock : UInt64), u.rt.instance_ = some i →
      setBreakpoint .asyncCall (u.setAsyncCallInfo { destination := a, data := d, gasLimit := u.gasLeft, gasLocked := lock, valueBytes := v }) =
        (.ok (), registered u a d v lock) := fun u lock hu => setBreakpoint_run _ _ (i := i) hu
  have hfin : ∀ (u : St χ A) (lock : UInt64), u.rt.instance_ = some i →
      M.bind (M.modify fun s => s.setAsyncCallInfo
        { destination := a, data := d, gasLimit := s.gasLeft, gasLocked := lock, valueBytes := v })
        (fun _ => M.bind (setBreakpoint .asyncCall) fun _ => M.pure (none : Option Err)) u = (.ok none, registered u a d v lock) := by
    intro u lock hu
    simp only [M.bind, M.modify, hreg u lock hu]; rfl
  dsimp only
  unfold executeAsyncCall useGasForAsyncStep
  simp only [M.bind_eq, M.bind, M.get, useGasBounded_run hi]
  by_cases h1 : s.gasLeft ≤ s.met.sched.api .asyncCallStep
  · simp only [if_pos h1]; rfl
  · simp only [if_neg h1, hasCallbackMethod, curInst, M.bind_eq, M.bind, hi1, hm]
    by_cases h2 : (((s.insts i).mod.fn callbackName).isSome || !s.flags.dynGasLock) = true
    · simp only [M.pure_eq, M.pure, M.get, St.spend_flags, h2, if_true, M.bind, hl, useGasBounded_run hi1]
      by_cases h3 : (s.spend (s.met.sched.api .asyncCallStep)).gasLeft ≤ s.computeGasLocked
      · simp only [if_pos h3]; rfl
      · simp only [if_neg h3]
        exact hfin _ _ hi
    · simp only [Bool.not_eq_true] at h2
      simp only [M.pure_eq, M.pure, M.get, St.spend_flags, h2, Bool.false_eq_true, if_false]
      exact hfin _ _ hi

/-- C28. Registering an asynchronous call succeeds exactly if the price of one step and the reservation fit in the gas left
(with something to spare). Then exactly they are taken from the gas left, the reservation is recorded, and the rest is the
gas of the call. Otherwise nothing is registered. -/
theorem c28_register (a : Addr) (d v : Bytes) (s : St χ A) {i : Nat} (hi : s.rt.instance_ = some i)
    (hg : s.met.cur.gasForExecution.toNat < 2 ^ 63) (needed : Bool) (hn : needed = true ↔ HasCallback s i ∨ s.flags.dynGasLock = false) :
    ∃ r t, executeAsyncCall a d v s = (.ok r, t) ∧
      (r = none ↔ (s.met.sched.api .asyncCallStep).toNat + reservation s needed < s.gasLeft.toNat) ∧
      (r = none → t.gasLeft.toNat = s.gasLeft.toNat - (s.met.sched.api .asyncCallStep).toNat - reservation s needed ∧
        ∃ info, t.rt.cur.asyncCallInfo = some info ∧ info.destination = a ∧ info.data = d ∧ info.valueBytes = v ∧
          info.gasLocked.toNat = reservation s needed ∧ info.gasLimit = t.gasLeft) ∧
      (r ≠ none → t.rt = s.rt ∧ t.curBp = s.curBp) := by
  have hb : (((s.insts i).mod.fn callbackName).isSome || !s.flags.dynGasLock) = needed := by
    rw [Bool.eq_iff_iff, hn, Bool.or_eq_true, callback_needed, Bool.not_eq_true']
  have hreg : ∀ (u : St χ A) l, (registered u a d v l).gasLeft = u.gasLeft := by
    intro u l
    unfold St.gasLeft St.pointsUsed registered St.withBp St.setAsyncCallInfo
    dsimp only
    cases u.rt.instance_ with
    | none => rfl
    | some j => simp only [if_true]
  have hbp : ∀ g, (s.spend g).curBp = s.curBp := fun g => by
    unfold St.curBp St.spend
    simp only [hi, if_true]
  generalize hst : s.met.sched.api .asyncCallStep = step at *
  have h1 := gasLeft_spend hi hg step
  rw [executeAsyncCall_run hi]
  dsimp only
  rw [hb, hst]
  by_cases h2 : s.gasLeft ≤ step
  · rw [if_pos h2]
    rw [UInt64.le_iff_toNat_le] at h2
    exact ⟨_, _, rfl, by simp; omega, by simp, fun _ => ⟨rfl, rfl⟩⟩
  · rw [if_neg h2]
    rw [UInt64.le_iff_toNat_le] at h2
    cases needed with
    | true =>
      simp only [if_true]
      have hc := computeGasLocked_toNat s
      have hlt := s.gasLeft.toNat_lt
      have h4 := gasLeft_spend (s := s.spend step) (i := i) hi hg s.computeGasLocked
      by_cases h3 : (s.spend step).gasLeft ≤ s.computeGasLocked
      · rw [if_pos h3]
        rw [UInt64.le_iff_toNat_le] at h3
        exact ⟨_, _, rfl, by simp; omega, by simp, fun _ => ⟨rfl, hbp _⟩⟩
      · rw [if_neg h3]
        rw [UInt64.le_iff_toNat_le] at h3
        refine ⟨_, _, rfl, by simp; omega, fun _ => ⟨?_, _, rfl, rfl, rfl, rfl, ?_, ?_⟩, by simp⟩
        · rw [hreg]; omega
        · show s.computeGasLocked.toNat = _; omega
        · exact (hreg _ _).symm
    | false =>
      have h0 : reservation s false = 0 := rfl
      simp only [Bool.false_eq_true, if_false]
      refine ⟨_, _, rfl, by rw [h0]; simp; omega, fun _ => ⟨?_, _, rfl, rfl, rfl, rfl, by rw [h0]; rfl, ?_⟩, by simp⟩
      · rw [hreg, h0]; omega
      · exact (hreg _ _).symm

/-- C28. A reservation is at least the schedule's lock for callbacks. -/
theorem c28_atLeast (s : St χ A) : (s.met.sched.api .asyncCallbackGasLock).toNat ≤ reservation s true := by
  unfold reservation; simp only [if_true]; omega

theorem transfers_modAcc (c : OutCtx) (a b : Addr) (f : OutAcc → OutAcc) (hf : ∀ x, (f x).transfers = x.transfers) :
    transfers (c.modAcc a f).cur b = transfers c.cur b := by
  unfold transfers
  rw [get_modAcc]
  split
  · rename_i h; subst h
    simp only [Option.map_some, Option.getD_some, hf]
    cases c.cur.accounts.get? a <;> rfl
  · rfl
theorem transfers_getAcc (c : OutCtx) (a b : Addr) : transfers (c.getAcc a).2.2.cur b = transfers c.cur b := by
  unfold OutCtx.getAcc
  split
  · rfl
  · rename_i h
    unfold transfers
    dsimp only
    rw [AMap.get?_insert]
    split
    · rename_i h2; subst h2; rw [h]; rfl
    · rfl
theorem transfers_setAcc (c : OutCtx) (a b : Addr) (acc : OutAcc) (h : acc.transfers = transfers c.cur a) :
    transfers (c.setAcc a acc).cur b = transfers c.cur b := by
  unfold transfers OutCtx.setAcc at *
  dsimp only
  rw [AMap.get?_insert]
  split
  · rename_i h2; subst h2; rw [← h]; rfl
  · rfl

theorem transfers_getBalance (a b : Addr) (s : St χ A) : transfers (getBalance E a s).2.out.cur b = transfers s.out.cur b := by
  have h0 := transfers_getAcc s.out a b
  have h1 := getAcc_fst s.out a
  have h2 : (s.out.getAcc a).1.transfers = transfers s.out.cur a := by
    rw [h1]; unfold transfers; cases s.out.cur.accounts.get? a <;> rfl
  have h3 := transfers_getAcc s.out a a
  unfold getBalance
  generalize s.out.getAcc a = q at *
  obtain ⟨acc, isNew, out'⟩ := q
  dsimp only at h0 h1 h2 h3 ⊢
  split
  · exact h0
  · split
    · exact h0
    · rename_i ua _
      exact (transfers_setAcc out' a b { acc with balance := some ua.balance } (h2.trans h3.symm)).trans h0

theorem transfers_transferValueOnly (dst snd : Addr) (v : Int) (p : Bool) (s : St χ A) (b : Addr) :
    transfers (transferValueOnly E dst snd v p s).2.out.cur b = transfers s.out.cur b := by
  have hb := transfers_getBalance (E := E) snd b s
  unfold transferValueOnly
  split
  · rfl
  · generalize getBalance E snd s = q at hb
    obtain ⟨bal, t⟩ := q
    dsimp only at hb ⊢
    split
    · exact hb
    · split
      · exact hb
      · split
        · exact hb
        · dsimp only
          rw [transfers_modAcc, transfers_modAcc, transfers_getAcc, transfers_getAcc, hb]
          · exact fun _ => rfl
          · exact fun _ => rfl

theorem getBalance_met (a : Addr) (s : St χ A) : (getBalance E a s).2.met = s.met := by
  unfold getBalance
  dsimp only
  split
  · rfl
  · split <;> rfl
theorem transferValueOnly_met (d snd : Addr) (v : Int) (c : Bool) (s : St χ A) : (transferValueOnly E d snd v c s).2.met = s.met := by
  have hb := getBalance_met (E := E) snd s
  unfold transferValueOnly
  split
  · rfl
  · generalize getBalance E snd s = q at hb
    obtain ⟨bal, t⟩ := q
    dsimp only at hb ⊢
    split
    · exact hb
    · split
      · exact hb
      · split <;> exact hb

/-- C28. A call that leaves the shard travels with the gas of the call and, separately, the gas reserved for its callback; no
gas stays with the sender. -/
theorem c28_send (v : AsyncView) (s t : St χ A) {i : Nat} (hi : s.rt.instance_ = some i) (h : sendAsync E v s = (.ok none, t)) :
    transfers (effects t) v.destination = transfers (effects s) v.destination ++ [sentCall v s.rt.cur.scAddress] ∧
    (∀ b, b ≠ v.destination → transfers (effects t) b = transfers (effects s) b) ∧
    (s.met.cur.gasForExecution.toNat < 2 ^ 63 → t.gasLeft.toNat = 0) := by
  unfold sendAsync at h
  rw [get_bind, lift_bind] at h
  have hb := transfers_transferValueOnly (E := E) v.destination s.rt.cur.scAddress (bytesToNat v.valueBytes)
    (v.gasLimit > 0 && CallType.asynchronousCall ≠ .asynchronousCallBack) s
  have hr := transferValueOnly_rt (E := E) v.destination s.rt.cur.scAddress (bytesToNat v.valueBytes)
    (v.gasLimit > 0 && CallType.asynchronousCall ≠ .asynchronousCallBack) s
  have hm := transferValueOnly_met (E := E) v.destination s.rt.cur.scAddress (bytesToNat v.valueBytes)
    (v.gasLimit > 0 && CallType.asynchronousCall ≠ .asynchronousCallBack) s
  unfold transfer at h
  generalize transferValueOnly E v.destination s.rt.cur.scAddress (bytesToNat v.valueBytes)
    (v.gasLimit > 0 && CallType.asynchronousCall ≠ .asynchronousCallBack) s = q at h hb hr hm
  obtain ⟨e, u⟩ := q
  dsimp only at h hb hr hm
  cases e with
  | some e =>
    dsimp only at h
    rcases bind_ok h with ⟨_, _, _, h⟩ | ⟨_, h⟩ | ⟨_, h⟩ <;> cases h
  | none =>
    dsimp only at h
    rw [get_bind] at h
    have hi' : (addTransfer v.destination (sentCall v s.rt.cur.scAddress) u).rt.instance_ = some i := by
      show u.rt.instance_ = some i; rw [hr]; exact hi
    have h : (useGas (addTransfer v.destination (sentCall v s.rt.cur.scAddress) u).gasLeft >>= fun _ => pure none)
      (addTransfer v.destination (sentCall v s.rt.cur.scAddress) u) = (.ok none, t) := h
    rw [M.bind_eq, M.bind, useGas_run _ _ hi'] at h
    cases h
    refine ⟨?_, fun b hne => ?_, fun hg => ?_⟩
    · show transfers (u.out.modAcc _ _).cur v.destination = _
      rw [show transfers (effects s) v.destination = transfers u.out.cur v.destination from (hb _).symm]
      unfold transfers
      rw [get_modAcc, if_pos rfl]
      cases u.out.cur.accounts.get? v.destination <;> rfl
    · show transfers (u.out.modAcc _ _).cur b = _
      rw [show transfers (effects s) b = transfers u.out.cur b from (hb _).symm]
      unfold transfers
      rw [get_modAcc, if_neg (fun h => hne h.symm)]
    · rw [gasLeft_spend hi' (by show u.met.cur.gasForExecution.toNat < _; rw [hm]; exact hg)]
      omega

/-- C28. Giving back reserved gas raises the gas left by exactly that amount. -/
theorem c28_restore (s : St χ A) {i : Nat} (hi : s.rt.instance_ = some i) (g : UInt64) (h1 : g.toNat ≤ s.pointsUsed.toNat)
    (h2 : s.pointsUsed.toNat ≤ s.met.cur.gasForExecution.toNat) (hg : s.met.cur.gasForExecution.toNat < 2 ^ 63) :
    ∃ t, restoreGas g s = (.ok (), t) ∧ t.gasLeft.toNat = s.gasLeft.toNat + g.toNat ∧ t.out = s.out ∧ t.rt = s.rt := by
  have e : restoreGas g s = setPointsUsed (subU64 s.pointsUsed g) s := by
    unfold restoreGas
    rw [get_bind, if_pos (show g ≤ s.pointsUsed by rw [UInt64.le_iff_toNat_le]; exact h1)]
  rw [e]
  unfold setPointsUsed
  simp only [hi]
  have hc : (subU64 s.pointsUsed g).toNat = s.pointsUsed.toNat - g.toNat := by rw [subU64_toNat]
  have hcl : ¬ subU64 s.pointsUsed g > 0x7FFFFFFFFFFFFFFF := by
    rw [gt_iff_lt, UInt64.lt_iff_toNat_lt, hc]; simp only [UInt64.reduceToNat]; omega
  refine ⟨_, rfl, ?_, rfl, rfl⟩
  rw [gasLeft_toNat, gasLeft_toNat]
  have : (s.modInst i (fun x => { x with points := if subU64 s.pointsUsed g > 0x7FFFFFFFFFFFFFFF then 0x7FFFFFFFFFFFFFFF else subU64 s.pointsUsed g })).pointsUsed =
      subU64 s.pointsUsed g := by
    show St.pointsUsed { s with insts := _ } = _
    unfold St.pointsUsed
    dsimp only
    rw [hi]
    dsimp only
    rw [if_pos rfl]
    have hp : s.pointsUsed = (s.insts i).points := by unfold St.pointsUsed; rw [hi]
    rw [hp] at hcl
    exact if_neg hcl
  rw [this, hc]
  show s.met.cur.gasForExecution.toNat - _ = _
  omega

/-! ### C29 -/

theorem foldl_dataLength : ∀ (args : List Bytes) (n : UInt64), n.toNat + (args.map List.length).sum < 2 ^ 64 →
    (args.foldl (fun n a => addU64 n (UInt64.ofNat a.length)) n).toNat = n.toNat + (args.map List.length).sum := by
  intro args
  induction args with
  | nil => intro n _; simp
  | cons a args ih =>
    intro n h
    simp only [List.map_cons, List.sum_cons] at h ⊢
    have h1 : (addU64 n (UInt64.ofNat a.length)).toNat = n.toNat + a.length := by
      rw [addU64_toNat, UInt64.toNat_ofNat_of_lt' (by simp only [UInt64.size]; omega)]; omega
    rw [List.foldl_cons, ih _ (by omega), h1]
    omega

theorem handover_toNat (s : St χ A) (fn : Bytes) (args : List Bytes) (h : fn.length + args.length + (args.map List.length).sum < 2 ^ 64) :
    (addU64 (s.met.sched.api .asyncCallStep) (mulU64 s.met.sched.dataCopyPerByte (dataLength fn args))).toNat =
      min (handoverGas s fn args) (2 ^ 64 - 1) := by
  have h1 : (dataLength fn args).toNat = fn.length + args.length + (args.map List.length).sum := by
    unfold dataLength
    have h2 : (addU64 (UInt64.ofNat fn.length) (UInt64.ofNat args.length)).toNat = fn.length + args.length := by
      rw [addU64_toNat, UInt64.toNat_ofNat_of_lt' (by simp only [UInt64.size]; omega), UInt64.toNat_ofNat_of_lt' (by simp only [UInt64.size]; omega)]
      omega
    rw [foldl_dataLength _ _ (by omega), h2]
  rw [addU64_toNat, mulU64_toNat, h1]
  unfold handoverGas
  omega

theorem callbackArgs_eq (o : VMOutput) (e : Option Err) : (callbackArgs o e).1 = outcomeArgs o e := by
  unfold callbackArgs outcomeArgs
  dsimp only
  split <;> rfl

/-- C28, C29. The input of the callback: it runs on the calling contract, with the outcome as arguments, and is given the gas
that the call left and the gas reserved for it, less the price of handing over the arguments. If that price is not covered
there is no callback. (An outcome that returns tokens is the case `c29_tokens`.) -/
theorem c29_input (s : St χ A) (lock : UInt64) (o : VMOutput) (dst : Addr) (cb : Bytes) (e : Option Err)
    (hsum : o.gasRemaining.toNat + lock.toNat < 2 ^ 64)
    (hlen : cb.length + (outcomeArgs o e).length + ((outcomeArgs o e).map List.length).sum < 2 ^ 64) :
    (o.gasRemaining.toNat + lock.toNat ≤ handoverGas s cb (outcomeArgs o e) ∧ callbackInput s lock o dst cb e = .error .notEnoughGas) ∨
    (handoverGas s cb (outcomeArgs o e) < o.gasRemaining.toNat + lock.toNat ∧ ∃ i, callbackInput s lock o dst cb e = .ok i ∧
      i.recipient = s.rt.cur.scAddress ∧ i.vm.caller = dst ∧ i.vm.callType = .asynchronousCallBack ∧ i.vm.gasLocked = 0 ∧
      i.vm.gasProvided.toNat = o.gasRemaining.toNat + lock.toNat - handoverGas s cb (outcomeArgs o e) ∧
      (esdtReturn o e = none → i.function = cb ∧ i.vm.args = outcomeArgs o e)) := by
  have hu := handover_toNat s cb (outcomeArgs o e) hlen
  have ha := callbackArgs_eq o e
  have hs : (o.gasRemaining + lock).toNat = o.gasRemaining.toNat + lock.toNat := by
    rw [UInt64.toNat_add]; exact Nat.mod_eq_of_lt hsum
  unfold callbackInput
  generalize callbackArgs o e = q at ha ⊢
  obtain ⟨args, failed⟩ := q
  dsimp only at ha ⊢
  subst ha
  generalize addU64 (s.met.sched.api .asyncCallStep) (mulU64 s.met.sched.dataCopyPerByte (dataLength cb (outcomeArgs o e))) = use at hu ⊢
  by_cases h : o.gasRemaining + lock ≤ use
  · rw [if_pos h]
    rw [UInt64.le_iff_toNat_le, hs, hu] at h
    exact .inl ⟨by omega, rfl⟩
  · rw [if_neg h]
    have h' := h
    rw [UInt64.le_iff_toNat_le, hs, hu] at h'
    have hp : (o.gasRemaining + lock - use).toNat = o.gasRemaining.toNat + lock.toNat - handoverGas s cb (outcomeArgs o e) := by
      rw [UInt64.toNat_sub_of_le _ _ (by rw [UInt64.le_iff_toNat_le, hs, hu]; omega), hs, hu]; omega
    refine .inr ⟨by omega, ?_⟩
    cases esdtReturn o e with
    | none => exact ⟨_, rfl, rfl, rfl, rfl, rfl, hp, fun _ => ⟨rfl, rfl⟩⟩
    | some p => exact ⟨_, rfl, rfl, rfl, rfl, rfl, hp, fun h => nomatch h⟩

/-- C29. An outcome that returns tokens: the callback is reached through the transfer of the tokens, with the code of the
outcome and the remaining results after its name. -/
theorem c29_tokens (s : St χ A) (lock : UInt64) (o : VMOutput) (dst : Addr) (cb : Bytes) (e : Option Err) (i : CallInput) {f : Bytes}
    {targs : List Bytes} (ht : esdtReturn o e = some (f, targs)) (h : callbackInput s lock o dst cb e = .ok i) :
    i.function = f ∧ i.vm.args = targs ++ [cb, natToBytes o.returnCode.toNat] ++ o.returnData.tail ∧
    i.recipient = s.rt.cur.scAddress ∧ i.vm.caller = dst := by
  unfold callbackInput at h
  generalize callbackArgs o e = q at h
  obtain ⟨args, failed⟩ := q
  dsimp only at h
  split at h
  · cases h
  · rw [ht] at h
    cases h
    exact ⟨rfl, rfl, rfl, rfl⟩

theorem modAcc_results (c : OutCtx) (a : Addr) (f : OutAcc → OutAcc) : (c.modAcc a f).cur.returnData = c.cur.returnData ∧
    (c.modAcc a f).cur.returnCode = c.cur.returnCode ∧ (c.modAcc a f).cur.logs = c.cur.logs ∧ (c.modAcc a f).cur.returnMessage = c.cur.returnMessage := by
  unfold OutCtx.modAcc OutCtx.getAcc
  split <;> exact ⟨rfl, rfl, rfl, rfl⟩

theorem callback_ended {cr : DestResult} {v t : St χ A} (h : processCallbackOutput E (some cr.output) cr.err v = (.ok (), t)) :
    CallbackEnded E cr v t := by
  unfold processCallbackOutput at h
  cases he : cr.err with
  | none => rw [he] at h; cases h; exact ⟨fun _ => rfl, fun h => absurd he h⟩
  | some e =>
    rw [he] at h
    cases h
    exact ⟨fun h => (by rw [he] at h; cases h), fun _ => ⟨rfl, rfl, rfl, by simp [OutCtx.finish, OutCtx.setReturnMessage], rfl, rfl, fun _ => rfl, rfl⟩⟩

theorem callback_refused {e : Err} {v t : St χ A} (h : processCallbackOutput E none (some e) v = (.ok (), t)) : CallbackRefused E e v t := by
  unfold processCallbackOutput at h
  cases h
  obtain ⟨h1, h2, h3, h4⟩ := modAcc_results v.out v.rt.cur.scAddress
    (fun acc => { acc with gasUsed := addU64 acc.gasUsed v.met.cur.initialGasProvided })
  have h5 : ∀ a, transfers (v.out.modAcc v.rt.cur.scAddress
      (fun acc => { acc with gasUsed := addU64 acc.gasUsed v.met.cur.initialGasProvided })).cur a = transfers v.out.cur a :=
    fun a => transfers_modAcc _ _ a _ fun _ => rfl
  refine ⟨rfl, rfl, ?_, ?_, h2, h3, h5, rfl⟩
  · show (if e.isA .signalError then v.out.cur.returnMessage else if v.out.cur.returnMessage.length > 0 then v.out.cur.returnMessage else E.errText e) = _
    cases v.out.cur.returnMessage <;> cases e.isA .signalError <;> simp
  · simp only [OutCtx.finish, OutCtx.setReturnMessage]
    rw [List.append_assoc]
    exact congrArg (· ++ _) h1

/-- C29. An asynchronous call that is executed in the shard: first the destination runs, with the gas that is left; then the
callback runs, once, on the calling contract with the outcome. -/
theorem c29_round (ex : Executor χ A) (s s1 t : St χ A) {i : Nat} (hi : s.rt.instance_ = some i) {info : AsyncCallInfo} {f : Bytes} {args : List Bytes}
    (hinfo : s.rt.cur.asyncCallInfo = some info) (hdata : parseCallData info.data = some (f, args)) {m : AsyncMode}
    (hm : m = .syncCall ∨ m = .builtinIntraShard) (hmode : asyncMode E info (s.withBp .none) = (.ok (.ok m), s1)) {e : Option Err}
    (h : handleAsyncBreakpoint E ex s = (.ok e, t)) :
    e = none ∧ ∃ d r u, d.recipient = info.destination ∧ d.function = f ∧ d.vm.args = args ∧ d.vm.caller = s1.rt.cur.scAddress ∧
      d.vm.callValue = (bytesToNat info.valueBytes : Int) ∧ d.vm.gasProvided = s1.gasLeft ∧ ex.dest d s1 = (.ok r, u) ∧
      match callbackInput u info.gasLocked r.output info.destination callbackName r.err with
      | .error ce => CallbackRefused E ce u t
      | .ok c => ∃ u' cr v, restoreGas info.gasLocked u = (.ok (), u') ∧ ex.dest c u' = (.ok cr, v) ∧
          CallbackEnded E cr v t := by
  unfold handleAsyncBreakpoint at h
  rw [M.bind_eq, M.bind, setBreakpoint_run s .none hi] at h
  dsimp only at h
  rw [get_bind] at h
  have hinfo' : (s.withBp .none).rt.cur.asyncCallInfo = some info := hinfo
  rw [hinfo'] at h
  dsimp only at h
  rw [M.bind_eq, M.bind, hmode] at h
  dsimp only at h
  have hd : destinationInput s1 info.view = some { vm := { caller := s1.rt.cur.scAddress, args := args, callValue := bytesToNat info.valueBytes, callType := .asynchronousCall, gasPrice := s1.rt.cur.vmInput.gasPrice, gasProvided := s1.gasLeft, gasLocked := info.gasLocked, currentTxHash := s1.rt.cur.vmInput.currentTxHash, originalTxHash := s1.rt.cur.vmInput.originalTxHash }, recipient := info.destination, function := f } := by
    unfold destinationInput
    show Option.map _ (parseCallData info.data) = _
    rw [hdata]; rfl
  have h : (do
      let (out, e) ← execSyncDest ex info.view
      let (cbOut, cbErr) ← execSyncCallback ex info.view out e
      processCallbackOutput E cbOut cbErr
      pure none : M χ A (Option Err)) s1 = (.ok e, t) := by
    rcases hm with rfl | rfl <;> exact h
  unfold execSyncDest at h
  rcases bind_ok h with ⟨a, u, h1, h⟩ | ⟨_, h⟩ | ⟨_, h⟩
  · rw [get_bind, hd] at h1
    dsimp only at h1
    rcases bind_ok h1 with ⟨r, u0, h2, h1⟩ | ⟨_, h1⟩ | ⟨_, h1⟩
    · cases h1
      dsimp only at h
      unfold execSyncCallback at h
      dsimp only at h
      rcases bind_ok h with ⟨b, v, h3, h⟩ | ⟨_, h⟩ | ⟨_, h⟩
      · rw [get_bind] at h3
        rcases bind_ok h with ⟨_, w, h4, h⟩ | ⟨_, h⟩ | ⟨_, h⟩
        · cases h
          refine ⟨rfl, _, r, u, rfl, rfl, rfl, rfl, rfl, rfl, h2, ?_⟩
          have h3 : (match callbackInput u info.gasLocked r.output info.destination callbackName r.err with
            | .error e => pure (none, some e)
            | .ok input => do
              restoreGas info.gasLocked
              let r ← ex.dest input
              pure (some r.output, r.err) : M χ A _) u = (.ok b, v) := h3
          cases hc : callbackInput u info.gasLocked r.output info.destination callbackName r.err with
          | error ce => rw [hc] at h3; cases h3; exact callback_refused h4
          | ok c =>
            rw [hc] at h3
            dsimp only at h3
            rcases bind_ok h3 with ⟨_, u', h5, h3⟩ | ⟨_, h3⟩ | ⟨_, h3⟩
            · rcases bind_ok h3 with ⟨cr, v', h6, h3⟩ | ⟨_, h3⟩ | ⟨_, h3⟩
              · cases h3
                exact ⟨u', cr, v, h5, h6, callback_ended h4⟩
              · cases h3
              · cases h3
            · cases h3
            · cases h3
        · cases h
        · cases h
      · cases h
      · cases h
    · cases h1
    · cases h1
  · cases h
  · cases h

theorem isEsdtOnReturn_iff (f : Bytes) (args : List Bytes) : isEsdtOnReturn f args = true ↔ PlainTokens f args := by
  have h1 : "ESDTTransfer".toUTF8.data.toList = esdtTransferName := by decide +kernel
  have h2 : "ESDTNFTTransfer".toUTF8.data.toList = esdtNFTTransferName := by decide +kernel
  unfold isEsdtOnReturn PlainTokens
  rw [h1, h2]
  simp

theorem canExecSync_run (dest : Addr) (s : St χ A) : ∃ b o, canExecSync E dest s = (.ok b, { s with out := o }) ∧
    (∀ a, transfers o.cur a = transfers s.out.cur a) ∧ o.cur.returnData = s.out.cur.returnData ∧ (b = true ↔ HasCode E s dest) := by
  unfold canExecSync
  rw [M.bind_eq, M.bind]
  unfold M.lift getCode HasCode
  have ht := fun a => transfers_getAcc s.out dest a
  have hr : (s.out.getAcc dest).2.2.cur.returnData = s.out.cur.returnData := by
    unfold OutCtx.getAcc; split <;> rfl
  have hnew : (s.out.getAcc dest).2.1 = (s.out.cur.accounts.get? dest).isNone := by
    unfold OutCtx.getAcc; split <;> simp_all
  have hacc : ∀ acc, s.out.cur.accounts.get? dest = some acc → (s.out.getAcc dest).1 = acc := by
    intro acc h; unfold OutCtx.getAcc; rw [h]
  have htr : (s.out.getAcc dest).1.transfers = transfers (s.out.getAcc dest).2.2.cur dest := by
    rw [ht]
    unfold OutCtx.getAcc transfers
    cases s.out.cur.accounts.get? dest <;> rfl
  generalize s.out.getAcc dest = q at ht hr hnew hacc htr
  obtain ⟨acc, isNew, o⟩ := q
  dsimp only at *
  by_cases h1 : (!isNew && decide (acc.code.length > 0)) = true
  · rw [if_pos h1]
    simp only [Bool.and_eq_true, Bool.not_eq_true', decide_eq_true_eq] at h1
    refine ⟨true, o, ?_, ht, hr, ?_⟩
    · simp [h1.2, pure, M.pure]
    · rw [hnew] at h1
      obtain ⟨x, hx⟩ := Option.ne_none_iff_exists'.mp (show s.out.cur.accounts.get? dest ≠ none by
        intro hc; rw [hc] at h1; simp at h1)
      refine ⟨fun _ => .inl ⟨x, hx, ?_⟩, fun _ => rfl⟩
      rw [hacc x hx] at h1
      intro hc; rw [hc] at h1; simp at h1
  · rw [if_neg h1]
    have hno : ¬ ∃ acc, s.out.cur.accounts.get? dest = some acc ∧ acc.code ≠ [] := by
      rintro ⟨x, hx, hc⟩
      apply h1
      have : x.code.length > 0 := List.length_pos_iff.mpr hc
      simp [hnew, hx, hacc x hx, this]
    cases hu : E.hook.userAccount s.world dest with
    | error e => exact ⟨false, o, rfl, ht, hr, by simp [hno]⟩
    | ok u =>
      cases u with
      | none => exact ⟨false, o, rfl, ht, hr, by simp [hno]⟩
      | some ua =>
        dsimp only
        by_cases h2 : ua.code.length = 0
        · rw [if_pos h2]
          exact ⟨false, o, rfl, ht, hr, by simp [hno, List.length_eq_zero_iff.mp h2]⟩
        · rw [if_neg h2]
          have hpos : ua.code.length > 0 := by omega
          refine ⟨true, o.setAcc dest { acc with code := ua.code }, ?_, ?_, ?_, ?_⟩
          · simp [hpos, pure, M.pure]
          · intro a
            rw [← ht a]
            exact transfers_setAcc o dest a _ htr
          · exact hr
          · refine ⟨fun _ => .inr ⟨ua, rfl, ?_⟩, fun _ => rfl⟩
            intro hc; rw [hc] at h2; exact h2 rfl

/-- where a call is executed -/
theorem asyncMode_run (info : AsyncCallInfo) (s : St χ A) {f : Bytes} {args : List Bytes} (hdata : parseCallData info.data = some (f, args)) :
    ∃ m o, asyncMode E info s = (.ok (.ok m), { s with out := o }) ∧ (∀ a, transfers o.cur a = transfers s.out.cur a) ∧
      o.cur.returnData = s.out.cur.returnData ∧
      ((m = .syncCall ∨ m = .builtinIntraShard) ↔ RunsHere E s info.destination f args) ∧
      (m = .esdtTransferOnCallBack ↔ E.isBuiltin f = true ∧
        E.hook.shardOf s.world s.rt.cur.scAddress = E.hook.shardOf s.world info.destination ∧ GoesBack s info.destination f args) ∧
      (m = .unknown ↔ E.isBuiltin f = false ∧ ¬ HasCode E s info.destination) := by
  unfold asyncMode RunsHere
  rw [hdata]
  dsimp only
  rw [get_bind]
  cases hb : E.isBuiltin f with
  | false =>
    simp only [Bool.false_eq_true, if_false]
    obtain ⟨b, o, h1, h2, h3, h4⟩ := canExecSync_run (E := E) info.destination s
    rw [M.bind_eq, M.bind, h1]
    dsimp only
    cases b with
    | true => exact ⟨.syncCall, o, rfl, h2, h3, by simp [h4.mp rfl], by simp, by simp [h4.mp rfl]⟩
    | false =>
      have : ¬ HasCode E s info.destination := fun h => by have := h4.mpr h; cases this
      exact ⟨.unknown, o, rfl, h2, h3, by simp [this], by simp, by simp [this]⟩
  | true =>
    simp only [if_true]
    by_cases hs : E.hook.shardOf s.world s.rt.cur.scAddress = E.hook.shardOf s.world info.destination
    · have hs' : sameShard E s s.rt.cur.scAddress info.destination = true := by simp [sameShard, hs]
      rw [hs', if_pos rfl]
      by_cases hg : GoesBack s info.destination f args
      · obtain ⟨g1, g2, g3⟩ := hg
        have g1' := (isEsdtOnReturn_iff f args).mpr g1
        rw [if_pos (by simp [g1', g2, g3])]
        exact ⟨.esdtTransferOnCallBack, s.out, rfl, fun _ => rfl, rfl, by simp [GoesBack, g1, g2, g3], by simp [hs, GoesBack, g1, g2, g3], by simp⟩
      · have : ¬ (isEsdtOnReturn f args && decide (s.rt.cur.vmInput.callType = .asynchronousCall) &&
            decide (s.rt.cur.vmInput.caller = info.destination)) = true := by
          intro hc
          simp only [Bool.and_eq_true, decide_eq_true_eq] at hc
          exact hg ⟨(isEsdtOnReturn_iff f args).mp hc.1.1, hc.1.2, hc.2⟩
        rw [if_neg this]
        exact ⟨.builtinIntraShard, s.out, rfl, fun _ => rfl, rfl, by simp [hs, hg], by simp [hg], by simp⟩
    · have hs' : sameShard E s s.rt.cur.scAddress info.destination = false := by simp [sameShard, hs]
      rw [hs']
      exact ⟨.builtinCrossShard, s.out, rfl, fun _ => rfl, rfl, by simp [hs], by simp [hs], by simp⟩

/-- **C29**, where the call runs: a call of a contract whose code is known, or of a built-in function for an account of the shard, is executed
at once, by the running contract and with all its gas, and then the callback. -/
theorem c29_here (ex : Executor χ A) (s t : St χ A) {i : Nat} (hi : s.rt.instance_ = some i) {info : AsyncCallInfo} {f : Bytes} {args : List Bytes}
    (hinfo : s.rt.cur.asyncCallInfo = some info) (hdata : parseCallData info.data = some (f, args))
    (hh : RunsHere E s info.destination f args) {e : Option Err} (h : handleAsyncBreakpoint E ex s = (.ok e, t)) :
    e = none ∧ ∃ d s1 r u, d.recipient = info.destination ∧ d.function = f ∧ d.vm.args = args ∧ d.vm.caller = s.rt.cur.scAddress ∧
      d.vm.callValue = (bytesToNat info.valueBytes : Int) ∧ d.vm.gasProvided = s.gasLeft ∧
      s1.world = s.world ∧ (∀ a, transfers s1.out.cur a = transfers s.out.cur a) ∧ ex.dest d s1 = (.ok r, u) ∧
      match callbackInput u info.gasLocked r.output info.destination callbackName r.err with
      | .error ce => CallbackRefused E ce u t
      | .ok c => ∃ u' cr v, restoreGas info.gasLocked u = (.ok (), u') ∧ ex.dest c u' = (.ok cr, v) ∧
          CallbackEnded E cr v t := by
  obtain ⟨m, o, h1, h2, _, h3, _, _⟩ := asyncMode_run (E := E) info (s.withBp .none) hdata
  obtain ⟨he, d, r, u, g1, g2, g3, g4, g5, g6, g7, g8⟩ := c29_round ex s _ t hi hinfo hdata (h3.mpr hh) h1 h
  refine ⟨he, d, { s.withBp .none with out := o }, r, u, g1, g2, g3, g4, g5, ?_, rfl, h2, g7, g8⟩
  rw [g6]
  show (if s.met.cur.gasForExecution < (s.withBp .none).pointsUsed then 0 else s.met.cur.gasForExecution - (s.withBp .none).pointsUsed) = s.gasLeft
  have : (s.withBp .none).pointsUsed = s.pointsUsed := by
    unfold St.pointsUsed St.withBp
    rw [hi]
    simp
  rw [this]
  rfl

/-- **C29**, tokens returned to the contract that waits for the result: nothing is executed; the transfer becomes the first piece of the result
(which that contract's callback is given), and the gas reserved for a callback is released. -/
theorem c29_back (ex : Executor χ A) (s t : St χ A) {i : Nat} (hi : s.rt.instance_ = some i) {info : AsyncCallInfo} {f : Bytes} {args : List Bytes}
    (hinfo : s.rt.cur.asyncCallInfo = some info) (hdata : parseCallData info.data = some (f, args)) (hb : E.isBuiltin f = true)
    (hh : E.hook.shardOf s.world s.rt.cur.scAddress = E.hook.shardOf s.world info.destination) (hg : GoesBack s info.destination f args)
    {e : Option Err} (h : handleAsyncBreakpoint E ex s = (.ok e, t)) :
    e = none ∧ t.world = s.world ∧ (∀ a, transfers t.out.cur a = transfers s.out.cur a) ∧
      t.out.cur.returnData = info.data :: s.out.cur.returnData ∧
      (info.gasLocked.toNat ≤ s.pointsUsed.toNat → s.pointsUsed.toNat ≤ s.met.cur.gasForExecution.toNat → s.met.cur.gasForExecution.toNat < 2 ^ 63 →
        t.gasLeft.toNat = s.gasLeft.toNat + info.gasLocked.toNat) := by
  obtain ⟨m, o, h1, h2, h3, _, h4, _⟩ := asyncMode_run (E := E) info (s.withBp .none) hdata
  have hm := h4.mpr ⟨hb, hh, hg⟩
  subst hm
  unfold handleAsyncBreakpoint at h
  rw [M.bind_eq, M.bind, setBreakpoint_run s .none hi] at h
  dsimp only at h
  rw [get_bind] at h
  have hinfo' : (s.withBp .none).rt.cur.asyncCallInfo = some info := hinfo
  rw [hinfo'] at h
  dsimp only at h
  rw [M.bind_eq, M.bind, h1] at h
  dsimp only at h
  rcases bind_ok h with ⟨_, u, h5, h⟩ | ⟨_, h⟩ | ⟨_, h⟩
  · cases h5
    rcases bind_ok h with ⟨_, v, h6, h⟩ | ⟨_, h⟩ | ⟨_, h⟩
    · cases h
      have hp : ∀ x, ({ s.withBp .none with out := x } : St χ A).pointsUsed = s.pointsUsed := by
        intro x
        unfold St.pointsUsed St.withBp
        rw [hi]
        simp
      obtain ⟨rr, ins, h7, _⟩ := restoreGas_only info.gasLocked ({ s.withBp .none with out := o.prependFinish info.data } : St χ A)
      rw [h6] at h7
      simp only [Prod.mk.injEq] at h7
      obtain ⟨_, h7⟩ := h7
      refine ⟨rfl, ?_, ?_, ?_, ?_⟩
      · rw [h7]; rfl
      · intro a; rw [h7]; exact h2 a
      · rw [h7]
        show info.data :: o.cur.returnData = _
        rw [h3]; rfl
      · intro g1 g2 g3
        obtain ⟨t', h8, h9, _⟩ := c28_restore ({ s.withBp .none with out := o.prependFinish info.data } : St χ A) hi info.gasLocked
          (by rw [hp]; exact g1) (by rw [hp]; exact g2) g3
        have h10 := h6.symm.trans h8
        simp only [Prod.mk.injEq, true_and] at h10
        rw [h10, h9]
        congr 1
        unfold St.gasLeft
        rw [hp]
        rfl
    · cases h
    · cases h
  · cases h
  · cases h

/-- C29. A called contract sees the arguments, the caller and the value of its input (and keeps seeing them: C23). -/
theorem c29_seen (i : CallInput) (s : St χ A) :
    (callerView (enterDestState i s)).arguments = i.vm.args ∧ (callerView (enterDestState i s)).caller = i.vm.caller ∧
    (callerView (enterDestState i s)).address = i.recipient ∧ (callerView (enterDestState i s)).function = i.function ∧
    (callerView (enterDestState i s)).value = i.vm.callValue := by
  have e : ∀ u : St χ A, (copyTxHashes u i).vm.args = i.vm.args ∧ (copyTxHashes u i).vm.caller = i.vm.caller ∧
      (copyTxHashes u i).recipient = i.recipient ∧ (copyTxHashes u i).function = i.function ∧
      (copyTxHashes u i).vm.callValue = i.vm.callValue := by
    intro u; unfold copyTxHashes; split <;> exact ⟨rfl, rfl, rfl, rfl, rfl⟩
  exact e _

/-! ### Examples -/

section
open Fixture

/-- a callback that returns its first two arguments -/
def echo : P := .call (.getArgument 0 300) fun n => .call (.finish 300 n.toInt32) fun _ =>
  .call (.getArgument 1 300) fun n => .call (.finish 300 n.toInt32) fun _ => .ret
def cbMod : WasmModule EeiCall := mod [(Fixture.f, async (addr 101) [103]), (Fixture.g, async (addr 101) [102]), (callbackName, echo)]
def cbMods : List (Bytes × WasmModule EeiCall) :=
  [([1], cbMod), ([2], mod [(Fixture.g, .store 300 [77] <| .call (.finish 300 1) fun _ => .ret), (Fixture.f, signal)])]
def cbEnv : Env World EeiCall := envWith cbMods
def cbHost : St World EeiCall := hostLock (node [(addr 100, contract [1] 50), (addr 101, contract [2] 50)])

/-- the whole round: the destination returns 77, the callback is told code 0 and 77 -/
example : (match (runTx cbEnv 5 (callTx (addr 1) (addr 100) Fixture.f) cbHost).1 with
    | some (some o) => decide (o.returnCode = .ok ∧ o.returnData = [[77], [], [77]])
    | _ => false) = true := by decide +kernel
/-- the destination fails: the callback is told code 4 and the message -/
example : (match (runTx cbEnv 5 (callTx (addr 1) (addr 100) Fixture.g) cbHost).1 with
    | some (some o) => decide (o.returnCode = .ok ∧ o.returnData.map List.length = [1, 1] ∧ o.returnData.head? = some [4])
    | _ => false) = true := by decide +kernel

/-- a running contract that has a callback -/
def cbRunning : St World EeiCall :=
  let s := running (List.replicate 512 0) 100000
  { s with insts := fun _ => { mod := cbMod, mem := List.replicate 512 0, limit := 100000, addr := addr 100 }
           rt := { s.rt with codeSize := 1 }
           met := { s.met with sched := { sched with api := fun c => if c = .asyncCallbackGasLock then 20000 else 1 } }
           world := node [(addr 100, contract [1] 50), (addr 101, contract [2] 50)] }

example : reservation cbRunning true = 20002 ∧ HasCallback cbRunning 0 := by
  refine ⟨by decide, ?_⟩
  unfold HasCallback
  exact ⟨(callbackName, echo), .tail _ (.tail _ (.head _)), by decide +kernel⟩
example : (match executeAsyncCall (addr 101) [103] [] cbRunning with
    | (.ok none, t) => decide (t.gasLeft = 100000 - 1 - 20002) | _ => false) = true := by decide +kernel
/-- the hypotheses of `c29_round` are met -/
example : (match executeAsyncCall (addr 101) [103] [] cbRunning with
    | (.ok none, t) =>
      (match t.rt.cur.asyncCallInfo with
       | some info => (match parseCallData info.data, asyncMode cbEnv info (t.withBp .none), handleAsyncBreakpoint cbEnv (execN cbEnv 3) t with
          | some (fn, []), (.ok (.ok m), _), (.ok none, u) => decide (fn = [103] ∧ m = .syncCall ∧ u.out.cur.returnData = [[77], [], [77]])
          | _, _, _ => false)
       | none => false)
    | _ => false) = true := by decide +kernel

/-- `ESDTTransfer@aa@05` -/
def tokensBack : Bytes := buildCallData esdtTransferName [[0xaa], [5]]
/-- 101 has called 100 asynchronously, and 100 sends it tokens in the same way -/
def backRunning (caller : Addr) : St World EeiCall :=
  { cbRunning with rt := { cbRunning.rt with cur := { cbRunning.rt.cur with
      asyncCallInfo := some { destination := addr 101, data := tokensBack, gasLimit := 0, gasLocked := 300, valueBytes := [] }
      vmInput := { cbRunning.rt.cur.vmInput with callType := .asynchronousCall, caller := caller } } } }
example : PlainTokens esdtTransferName [[0xaa], [5]] ∧ GoesBack (backRunning (addr 101)) (addr 101) esdtTransferName [[0xaa], [5]] ∧
    ¬ GoesBack (backRunning (addr 102)) (addr 101) esdtTransferName [[0xaa], [5]] := by
  unfold GoesBack PlainTokens
  decide +kernel
/-- they are part of the result -/
example : (match handleAsyncBreakpoint cbEnv (execN cbEnv 3) (backRunning (addr 101)) with
    | (.ok none, t) => decide (t.out.cur.returnData = [tokensBack] ∧ t.world.cur.log = [] ∧ parseCallData tokensBack = some (esdtTransferName, [[0xaa], [5]]))
    | _ => false) = true := by decide +kernel
/-- tokens for somebody who has not called are transferred at once -/
example : (match handleAsyncBreakpoint cbEnv (execN cbEnv 3) (backRunning (addr 102)) with
    | (.ok none, t) => decide (t.world.cur.log.map (·.function) = [esdtTransferName] ∧ t.world.cur.log.map (·.recipient) = [addr 101])
    | _ => false) = true := by decide +kernel

/-- a callback that arrives from another shard -/
def arriving (lock : UInt64) : Tx :=
  .call { vm := { caller := addr 101, gasProvided := 10000, gasLocked := lock, callType := .asynchronousCallBack, args := [[], [77]] },
          recipient := addr 100, function := callbackName }

/-- C28 fails for callbacks that arrive from another shard: the gas locked for them is added to the gas they have to account
for, but not to the gas they can use, so the account never balances and the callback fails. -/
theorem c28_neg : ∃ (o o' : VMOutput), Spec.Outputs cbEnv 5 (arriving 0) cbHost o ∧ o.returnCode = .ok ∧
    Spec.Outputs cbEnv 5 (arriving 500) cbHost o' ∧ o'.returnCode ≠ .ok := by
  have h : (match (runTx cbEnv 5 (arriving 0) cbHost).1, (runTx cbEnv 5 (arriving 500) cbHost).1 with
    | some (some o), some (some o') => decide (o.returnCode = .ok ∧ o'.returnCode ≠ .ok)
    | _, _ => false) = true := by decide +kernel
  unfold Spec.Outputs
  generalize (runTx cbEnv 5 (arriving 0) cbHost).1 = q at h
  generalize (runTx cbEnv 5 (arriving 500) cbHost).1 = q' at h
  match q, q' with
  | some (some o), some (some o') => exact ⟨o, o', rfl, (of_decide_eq_true h).1, rfl, (of_decide_eq_true h).2⟩
  | some (some _), some none | some (some _), none | some none, _ | none, _ => cases h
end

end Arwen.Props
