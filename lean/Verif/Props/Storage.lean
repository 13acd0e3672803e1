import Verif.Props.StorageLemmas
import Verif.Eei.Commands
import Verif.Eei.Run
import Verif.Fixture
/-
C06–C10: contract storage.
-/
namespace Arwen.Props
open Arwen Spec
variable {χ A : Type} {E : Env χ A}

/-! ### C06: loads return the latest store -/

/-- A load of an own key answers the value pending in this execution or else the one on the chain, and changes no value. -/
theorem c06_load {k v : Bytes} {s t : St χ A} (h : getStorage E k s = (.ok v, t)) :
    v = view E s s.sto.addr k ∧ (∀ b l, view E t b l = view E s b l) :=
  ⟨(getStorage_view h).1, (getStorage_view h).2.1⟩

/-- The same for a load from another contract's storage, if it is readable and the key is not one of the protocol's. -/
theorem c06_load_from {a : Addr} {k v : Bytes} {s t : St χ A} (h : getStorageFromAddress E a k s = (.ok v, t)) :
    (storageReadable E s a = true → isReservedKey E k = false → v = view E s a k) ∧
    (storageReadable E s a = false → v = []) ∧ (∀ b l, view E t b l = view E s b l) :=
  ⟨(getStorageFrom_view h).1, (getStorageFrom_view h).2.2.1, (getStorageFrom_view h).2.2.2.1⟩

/-- A store outside of read-only mode with no error makes the value the one to be loaded. -/
theorem c06_store {k v : Bytes} {s t u : St χ A} {st : StorageStatus} {x : Bytes} (hro : s.rt.cur.readOnly = false)
    (h : setStorage E k v s = (.ok (st, none), t)) (hl : getStorage E k t = (.ok x, u)) : x = v := by
  rcases setStorage_view h with ⟨h1, h2, h3⟩ | ⟨_, _, _, _, h5, _, _, h7⟩
  · exfalso
    unfold setStorage at h
    rw [get_bind, hro] at h
    simp only [Bool.false_eq_true, if_false] at h
    split at h
    · simp [M.pure_eq, M.pure] at h
    · rename_i hrk
      split at h
      · simp [M.pure_eq, M.pure] at h
      · rename_i hp
        simp only [Bool.and_eq_true] at hp
        rcases h1 with h1 | h1 | h1
        · rw [hro] at h1; exact absurd h1 (by simp)
        · exact hrk h1
        · exact hp h1
  · rw [(getStorage_view hl).1, h7.sto, h5]
    simp

/-- Any history of loads, stores and nested calls is one of a store with nested transactions: loads are answered with its
contents, failed calls undo what they stored. -/
theorem c06_history {ks : List Bool} {s t : St χ A} {es : List Event} (h : Hist E [] s es ks t) :
    ∃ ts, TStore.Steps ⟨view E s, s.sto.addr, []⟩ es ts ∧ ts.contents = view E t ∧ ts.addr = t.sto.addr := by
  obtain ⟨ts, h1, h2⟩ := hist_steps h (ts := ⟨view E s, s.sto.addr, []⟩) ⟨rfl, rfl, by
    unfold Stacked; trivial⟩
  exact ⟨ts, h1, h2.contents, h2.addr⟩

/-- Over a node that leaves storage alone, a nested call of any depth is such a history. -/
theorem c06_executions (hq : QuietNode E) {n : Nat} {i : CallInput} {s t : St χ A} {r : DestResult}
    (h : (execN E n).dest i s = (.ok r, t)) :
    ∃ es ts, Hist E [] s es [] t ∧ TStore.Steps ⟨view E s, s.sto.addr, []⟩ es ts ∧ ts.contents = view E t := by
  obtain ⟨es, hh⟩ := ((explained_binary hq).nested n).dest i s r t h []
  obtain ⟨ts, h1, h2, _⟩ := c06_history hh
  exact ⟨es, ts, hh, h1, h2⟩

theorem reached_same (hq : QuietNode E) {w0 w : χ} (h : Reached E w0 w) (a : Addr) (k : Bytes) :
    E.hook.storageData w a k = E.hook.storageData w0 a k := by
  induction h with
  | start => rfl
  | builtin w i _ ih => rw [hq.builtin]; exact ih
  | revert w n _ ih => rw [hq.revert]; exact ih
  | saveCompiled w h c _ ih => rw [hq.saveCompiled]; exact ih

/-- The same for a whole transaction: it reports an error and no updates, or the updates it reports lead from the values on the
chain to the contents of the store at its end. -/
theorem c06_tx (hq : QuietNode E) (n : Nat) (tx : Tx) {s : St χ A} {o : VMOutput} (hr : AtRest E s) (hp : s.sto.protect = true)
    (ho : (runTx E n tx s).1 = some (some o)) :
    (o.returnCode ≠ .ok ∧ o.accounts = AMap.empty) ∨
    ∃ es u ts, Hist E [] (txStart E tx s) es [] u ∧
      TStore.Steps ⟨E.hook.storageData s.world, (txStart E tx s).sto.addr, []⟩ es ts ∧
      ∀ a k, (pending o a k).getD (E.hook.storageData s.world a k) = ts.contents a k := by
  obtain ⟨u, t, h1, h2⟩ := runTx_ending n tx hr ho
  rcases h2.cases with ⟨e, w, h2⟩ | ⟨h2, _, _, _⟩
  · left; rw [h2]; exact ⟨(onError_output e w).1, (onError_output e w).2.1⟩
  · right
    have hI := txStart_protected (E := E) tx s hp
    have hu := h1.inv ((protected_unary s.world).stepT (fun _ _ _ h => h) ((protected_unary s.world).keeps n)) hI
    obtain ⟨es, hh⟩ := (explained_binary hq).runT (fun s d _ ks =>
      ⟨_, hist_one (.elsewhere ks s _ rfl rfl rfl (deployCode_pending s.out d) (fun _ _ => rfl))⟩) h1 []
    obtain ⟨ts, h3, h4, _⟩ := c06_history hh
    have hv : view E (txStart E tx s) = E.hook.storageData s.world := by
      funext a k
      simp only [Spec.view, txStart_pending, Option.getD_none]
      exact reached_same hq hI.2 a k
    rw [hv] at h3
    refine ⟨es, u, ts, hh, h3, fun a k => ?_⟩
    rw [h4, h2, pending_finalize]
    simp only [Spec.view]
    rw [reached_same hq hu.2]

/-! ### C07: stores are confined to the executing contract and the key -/

/-- A store changes what is read at no other address and at no other key, and the updates reported for them. -/
theorem c07_store {k v : Bytes} {s t : St χ A} {st : StorageStatus} {e : Option Err} (h : setStorage E k v s = (.ok (st, e), t))
    {b : Addr} {l : Bytes} (hn : ¬ (b = s.sto.addr ∧ l = k)) :
    view E t b l = view E s b l ∧ pending t.out.cur b l = pending s.out.cur b l := by
  rcases setStorage_view h with ⟨_, h2, _⟩ | ⟨_, _, _, _, h5, h6, _, _⟩
  · subst h2; exact ⟨rfl, rfl⟩
  · exact ⟨by rw [h5, if_neg hn], h6 b l hn⟩

/-- Any small step of the host, of whatever kind, leaves the value of an entry of another contract alone (built-in functions
may change the chain), unless it is a nested call, or a nested call for a deployment that failed and is then removed. -/
theorem c07_step {ex : Executor χ A} {s t : St χ A} (h : StepB E ex s t) {b : Addr} (hb : b ≠ s.sto.addr) (l : Bytes) :
    (pending t.out.cur b l).getD (E.hook.storageData s.world b l) = view E s b l ∨
    (∃ i r, ex.dest i s = (.ok r, t)) ∨ (∃ i r, ex.same i s = (.ok r, t)) ∨
    (∃ i r u a ci, ex.dest i s = (.ok r, u) ∧ ApiRuns E (.createContract ci) ∧ NewAt E s a ∧ u.rt.cur.readOnly = false ∧
      t = { u with out := u.out.deleteAcc a }) := by
  rcases h.split with h | ⟨i, r, h, _⟩ | ⟨i, r, h, _⟩ | h
  · left
    rcases step_pending h b l with h | ⟨h1, h2⟩ | h
    · rw [h]; rfl
    · rw [h2]; simp only [Spec.view, h1, Option.getD_none, Option.getD_some]
    · exact absurd h.1 hb
  · exact .inr (.inl ⟨i, r, h⟩)
  · exact .inr (.inr (.inl ⟨i, r, h⟩))
  · exact .inr (.inr (.inr h))

/-! ### C08: protected keys -/

/-- An update that a transaction reports for a guarded key is a value of the node: one it already stored, or one reported by
its built-in functions. Contracts cannot write there. -/
theorem c08_tx (n : Nat) (tx : Tx) {s : St χ A} {o : VMOutput} (hr : AtRest E s) (hp : s.sto.protect = true)
    (ho : (runTx E n tx s).1 = some (some o)) {a : Addr} {k v : Bytes} (hk : Guarded E k) (hv : pending o a k = some v) :
    FromNode E s.world a k v := by
  have h0 : Clean E s.world (txStart E tx s).out.cur := by
    intro a k v _ hv; rw [txStart_pending] at hv; cases hv
  rcases (clean_inv (E := E) s.world).tx (fun _ _ _ h => h)
    (fun s d _ _ hP a k v hk hv => hP a k v hk (by rw [← hv]; exact (deployCode_pending s.out d a k).symm)) n tx hr ⟨txStart_protected tx s hp, h0, by rw [txStart_stack]; intro o ho; cases ho⟩ ho with
    ⟨e, w, h⟩ | h
  · rw [h] at hv
    simp only [Spec.pending, (onError_output e w).2.1] at hv
    cases hv
  · exact h a k v hk hv

/-- A contract's store to such a key fails with the matching error and changes nothing. -/
theorem c08_store (k v : Bytes) {s : St χ A} (hro : s.rt.cur.readOnly = false) :
    (E.elrondPrefix <+: k → setStorage E k v s = (.ok (.unchanged, some .storeElrondReservedKey), s)) ∧
    (¬ E.elrondPrefix <+: k → arwenPrefix <+: k → s.sto.protect = true →
      setStorage E k v s = (.ok (.unchanged, some .cannotWriteProtectedKey), s)) := by
  have hr : isReservedKey E k = true ↔ E.elrondPrefix <+: k := by unfold isReservedKey; exact List.isPrefixOf_iff_prefix
  have hp : isProtectedKey k = true ↔ arwenPrefix <+: k := by unfold isProtectedKey; exact List.isPrefixOf_iff_prefix
  refine ⟨fun h => ?_, fun h1 h2 h3 => ?_⟩
  · unfold setStorage
    rw [get_bind, hro, hr.mpr h]
    rfl
  · have hr' : isReservedKey E k = false := by
      cases hc : isReservedKey E k with
      | false => rfl
      | true => exact absurd (hr.mp hc) h1
    unfold setStorage
    rw [get_bind, hro, hr', hp.mpr h2, h3]
    rfl

theorem cleanInstance_sto (s : St χ A) : s.cleanInstance.sto = s.sto := by
  unfold St.cleanInstance
  split
  · rfl
  · split <;> rfl
theorem resetWarm_sto (s : St χ A) : s.resetWarm.sto = s.sto := by unfold St.resetWarm; split <;> rfl
theorem hostClean_sto (s : St χ A) : (hostClean s).sto = s.sto := by
  unfold hostClean
  split
  · rfl
  · exact cleanInstance_sto s

/-- The protection is on after every transaction, whatever its outcome, if it was on before. -/
theorem c08_protection (n : Nat) (tx : Tx) {s : St χ A} (hr : AtRest E s) (hp : s.sto.protect = true)
    (ho : (runTx E n tx s).1 ≠ none) : (runTx E n tx s).2.sto.protect = true := by
  have ha := runTx_any (E := E) n tx s
  generalize (runTx E n tx s).1 = r at ha ho
  generalize (runTx E n tx s).2 = t at ha
  have key : ∀ {r : Res VMOutput} {t : St χ A}, txBody E (execN E n) tx (hostInit E s) = (r, t) → r ≠ .oof → t.sto.protect = true :=
    fun h hn => ((protected_unary s.world).txBody (fun _ _ _ h => h) n tx hr h hn (txStart_protected tx s hp)).1
  cases ha with
  | ok o t hb => rw [hostClean_sto]; exact key hb (by simp)
  | reset o t hb _ => rw [resetWarm_sto, hostClean_sto]; exact key hb (by simp)
  | panic t hb => rw [hostClean_sto]; exact key hb (by simp)
  | oof t hb => exact absurd rfl ho

/-! ### C09: the host's own entries -/

/-- The part that holds: the host's entry for data that itself starts with `ARWEN@` cannot be written by a contract. -/
theorem c09_partial (kind d v : Bytes) {s : St χ A} (hro : s.rt.cur.readOnly = false) (hp : s.sto.protect = true)
    (hd : arwenPrefix <+: d) : ∃ e, setStorage E (customStorageKey kind d) v s = (.ok (.unchanged, some e), s) := by
  have hk : arwenPrefix <+: customStorageKey kind d := hd.trans (List.prefix_append _ _)
  by_cases h : E.elrondPrefix <+: customStorageKey kind d
  · exact ⟨_, (c08_store _ v hro).1 h⟩
  · exact ⟨_, (c08_store _ v hro).2 h hk hp⟩

/-! ### C10: status and price of a store -/

/-- the largest amount of gas that an instance counts -/
def maxPoints : Nat := 2 ^ 63 - 1

/-- the amount of gas is charged to the running instance, up to the largest amount that it counts -/
structure Paid (s t : St χ A) (g : Nat) : Prop where
  rt : t.rt = s.rt
  met : t.met = s.met
  points : t.pointsUsed.toNat = min (s.pointsUsed.toNat + g) maxPoints

theorem Paid.trans {s t u : St χ A} {g h : Nat} (h1 : Paid s t g) (h2 : Paid t u h) : Paid s u (g + h) :=
  ⟨h2.rt.trans h1.rt, h2.met.trans h1.met, by rw [h2.points, h1.points]; omega⟩
theorem Paid.zero {s t : St χ A} (h : s.pointsUsed.toNat ≤ maxPoints) (h1 : t.rt = s.rt) (h2 : t.met = s.met) (h3 : t.insts = s.insts) :
    Paid s t 0 := by
  refine ⟨h1, h2, ?_⟩
  have : t.pointsUsed = s.pointsUsed := by unfold St.pointsUsed; rw [h1, h3]
  rw [this]; omega
theorem Paid.spend {s : St χ A} {i : Nat} (hi : s.rt.instance_ = some i) (g : UInt64) : Paid s (s.spend g) g.toNat := by
  refine ⟨rfl, rfl, ?_⟩
  have : (s.spend g).pointsUsed = clampPoints (addU64 s.pointsUsed g) := by
    simp only [St.pointsUsed, St.spend, hi, if_true]
  have hc := addU64_toNat s.pointsUsed g
  have hg := toNat_lt g
  rw [this]
  unfold clampPoints maxPoints
  split
  · rename_i h
    have h : (0x7FFFFFFFFFFFFFFF : UInt64) < addU64 s.pointsUsed g := h
    rw [UInt64.lt_iff_toNat_lt] at h
    simp only [UInt64.reduceToNat] at h ⊢
    omega
  · rename_i h
    have h : ¬ (0x7FFFFFFFFFFFFFFF : UInt64) < addU64 s.pointsUsed g := h
    rw [UInt64.lt_iff_toNat_lt] at h
    simp only [UInt64.reduceToNat] at h ⊢
    omega
theorem Paid.cast {s t : St χ A} {g h : Nat} (hp : Paid s t g) (hh : min g maxPoints = min h maxPoints) : Paid s t h :=
  ⟨hp.rt, hp.met, by rw [hp.points]; omega⟩

theorem useGas_paid {s : St χ A} {i : Nat} (hi : s.rt.instance_ = some i) (g : UInt64) :
    ∃ t, useGas g s = (.ok (), t) ∧ Paid s t g.toNat ∧ t.out = s.out ∧ t.sto = s.sto ∧ t.world = s.world :=
  ⟨_, useGas_run s g hi, .spend hi g, rfl, rfl, rfl⟩

theorem mul_price (a : UInt64) (n : Nat) (hn : n < 2 ^ 64) :
    min (mulU64 a (UInt64.ofNat n)).toNat maxPoints = min (a.toNat * n) maxPoints := by
  rw [mulU64_toNat, UInt64.toNat_ofNat_of_lt' hn]
  unfold maxPoints; omega

theorem useKeyGas_paid {s : St χ A} {i : Nat} (hi : s.rt.instance_ = some i) (hp : s.pointsUsed.toNat ≤ maxPoints) (k : Bytes)
    (hk : k.length < 2 ^ 64) :
    ∃ t, useKeyGas k s = (.ok (), t) ∧ Paid s t (keyCost s.met.sched k) ∧ t.out = s.out ∧ t.sto = s.sto ∧ t.world = s.world := by
  unfold useKeyGas
  rw [get_bind]
  unfold addressLen
  split
  · obtain ⟨t, h1, h2, h3⟩ := useGas_paid hi (mulU64 s.met.sched.dataCopyPerByte (UInt64.ofNat (k.length - 32)))
    exact ⟨t, h1, h2.cast (mul_price _ _ (by omega)), h3⟩
  · refine ⟨s, rfl, ?_, rfl, rfl, rfl⟩
    have : keyCost s.met.sched k = 0 := by
      unfold keyCost
      have : k.length - 32 = 0 := by omega
      rw [this]; rfl
    rw [this]
    exact .zero hp rfl rfl rfl

/-- refunding an amount that fits -/
theorem refund_add (c : OutCtx) (g : UInt64) (h0 : 0 ≤ c.cur.gasRefund) (h : c.cur.gasRefund + g.toNat < 2 ^ 63) :
    (c.setRefund (addU64 c.getRefund g)).cur.gasRefund = c.cur.gasRefund + g.toNat := by
  unfold OutCtx.setRefund OutCtx.getRefund
  dsimp only
  obtain ⟨n, hn⟩ := Int.eq_ofNat_of_zero_le h0
  rw [hn] at h ⊢
  have h1 : (UInt64.ofInt (n : Int)).toNat = n := by
    have e : ((n : Int) % 2 ^ 64).toNat = n := by omega
    have hs : n < UInt64.size := by rw [UInt64.size]; omega
    unfold UInt64.ofInt
    rw [e, UInt64.toNat_ofNat_of_lt' hs]
  have h2 := addU64_toNat (UInt64.ofInt n) g
  rw [h1] at h2
  generalize addU64 (UInt64.ofInt n) g = x at h2
  have hx := toNat_lt x
  have h3 : x.toInt64.toInt = (x.toNat : Int).bmod (2 ^ 64) := by
    rw [← UInt64.ofNat_toNat (x := x), UInt64.toInt64_ofNat', Int64.toInt_ofNat']
    simp [Int64.size]
  rw [h3, bmod64 _ (by omega) (by omega)]
  split
  · omega
  · split <;> omega

theorem freeGas_run (g : UInt64) (s : St χ A) :
    freeGas g s = (.ok (), { s with out := s.out.setRefund (addU64 s.out.getRefund g) }) := rfl

/-- refunding a product that fits -/
theorem refund_mul (c : OutCtx) (a : UInt64) (n : Nat) (hn : n < 2 ^ 64) (h0 : 0 ≤ c.cur.gasRefund)
    (h : c.cur.gasRefund + (a.toNat * n : Nat) < 2 ^ 63) :
    (c.setRefund (addU64 c.getRefund (mulU64 a (UInt64.ofNat n)))).cur.gasRefund = c.cur.gasRefund + (a.toNat * n : Nat) := by
  have he : (mulU64 a (UInt64.ofNat n)).toNat = a.toNat * n := by
    rw [mulU64_toNat, UInt64.toNat_ofNat_of_lt' hn]; omega
  rw [refund_add _ _ h0 (by rw [he]; exact h), he]

/-- The price and the refund of a change of value, and its status. -/
theorem storageGas_paid {s : St χ A} {i : Nat} (hi : s.rt.instance_ = some i) (hp : s.pointsUsed.toNat ≤ maxPoints)
    {old v : Bytes} (hne : old ≠ v) (ho : old.length < 2 ^ 64) (hv : v.length < 2 ^ 64) :
    ∃ t, storageGas old v s = (.ok (storeStatus old v), t) ∧ Paid s t (storeCost s.met.sched old v) ∧
      (0 ≤ s.out.cur.gasRefund → s.out.cur.gasRefund + storeRefund s.met.sched old v < 2 ^ 63 →
        t.out.cur.gasRefund = s.out.cur.gasRefund + storeRefund s.met.sched old v) := by
  unfold storageGas storeStatus storeCost storeRefund
  rw [get_bind]
  simp only [if_neg hne]
  by_cases h1 : old = []
  · simp only [if_pos h1]
    obtain ⟨t, e1, e2, e3, _⟩ := useGas_paid hi (mulU64 s.met.sched.storePerByte (UInt64.ofNat v.length))
    refine ⟨t, by simp only [M.bind_eq, M.bind, e1]; rfl, e2.cast (mul_price _ _ hv), fun _ _ => ?_⟩
    rw [e3, h1]; simp
  · simp only [if_neg h1]
    by_cases h2 : v = []
    · simp only [if_pos h2]
      refine ⟨{ s with out := s.out.setRefund (addU64 s.out.getRefund (mulU64 s.met.sched.releasePerByte (UInt64.ofNat old.length))) },
        by simp only [M.bind_eq, M.bind, freeGas_run]; rfl, .zero hp rfl rfl rfl, fun h0 hr => ?_⟩
      subst h2
      exact refund_mul s.out _ _ ho h0 hr
    · simp only [if_neg h2]
      by_cases h3 : old.length < v.length
      · rw [if_pos h3, if_pos h3]
        obtain ⟨t, e1, e2, e3, _⟩ := useGas_paid hi (addU64 (mulU64 s.met.sched.persistPerByte (UInt64.ofNat old.length))
          (mulU64 s.met.sched.storePerByte (UInt64.ofNat (v.length - old.length))))
        refine ⟨t, by simp only [M.bind_eq, M.bind, e1]; rfl, e2.cast ?_, fun _ _ => ?_⟩
        · rw [addU64_toNat]
          have a1 := mul_price s.met.sched.persistPerByte old.length ho
          have a2 := mul_price s.met.sched.storePerByte (v.length - old.length) (by omega)
          unfold maxPoints at *; omega
        · rw [e3]
          have : old.length - v.length = 0 := by omega
          rw [this]; simp
      · rw [if_neg h3, if_neg h3]
        by_cases h4 : v.length < old.length
        · rw [if_pos h4, if_pos h4]
          obtain ⟨t, e1, e2, e3, _⟩ := useGas_paid hi (mulU64 s.met.sched.persistPerByte (UInt64.ofNat v.length))
          refine ⟨{ t with out := t.out.setRefund (addU64 t.out.getRefund (mulU64 s.met.sched.releasePerByte (UInt64.ofNat (old.length - v.length)))) },
            by simp only [M.bind_eq, M.bind, e1, freeGas_run]; rfl, ⟨e2.rt, e2.met, (e2.cast (mul_price _ _ hv)).points⟩, fun h0 hr => ?_⟩
          rw [← e3] at h0 hr ⊢
          exact refund_mul t.out _ _ (by omega) h0 hr
        · rw [if_neg h4, if_neg h4]
          refine ⟨s, rfl, .zero hp rfl rfl rfl, fun _ _ => ?_⟩
          have : old.length - v.length = 0 := by omega
          rw [this]; simp

/-- A permitted store reports the status, charges exactly the price and refunds exactly the release of bytes. -/
theorem c10_store {s : St χ A} {i : Nat} (hi : s.rt.instance_ = some i) (hp : s.pointsUsed.toNat ≤ maxPoints) (k v : Bytes)
    (hro : s.rt.cur.readOnly = false) (hres : ¬ E.elrondPrefix <+: k) (hprot : ¬ (arwenPrefix <+: k ∧ s.sto.protect = true))
    (hk : k.length < 2 ^ 64) (hv : v.length < 2 ^ 64) (ho : (view E s s.sto.addr k).length < 2 ^ 64) :
    ∃ t, setStorage E k v s = (.ok (storeStatus (view E s s.sto.addr k) v, none), t) ∧
      t.pointsUsed.toNat = min (s.pointsUsed.toNat + (keyCost s.met.sched k + storeCost s.met.sched (view E s s.sto.addr k) v)) maxPoints ∧
      (0 ≤ s.out.cur.gasRefund → s.out.cur.gasRefund + storeRefund s.met.sched (view E s s.sto.addr k) v < 2 ^ 63 →
        t.out.cur.gasRefund = s.out.cur.gasRefund + storeRefund s.met.sched (view E s s.sto.addr k) v) := by
  have hr : isReservedKey E k = false := by
    cases hc : isReservedKey E k with
    | false => rfl
    | true => exact absurd (List.isPrefixOf_iff_prefix.mp hc) hres
  have hpk : (isProtectedKey k && s.sto.protect) = false := by
    cases hc : (isProtectedKey k && s.sto.protect) with
    | false => rfl
    | true =>
      rw [Bool.and_eq_true] at hc
      exact absurd ⟨List.isPrefixOf_iff_prefix.mp hc.1, hc.2⟩ hprot
  unfold setStorage
  rw [get_bind, hro, hr, hpk]
  simp only [Bool.false_eq_true, if_false]
  obtain ⟨s1, e1, p1, o1, t1, w1⟩ := useKeyGas_paid hi hp k hk
  have hview : view E s1 s1.sto.addr k = view E s s.sto.addr k := by simp only [Spec.view, o1, t1, w1]
  obtain ⟨o, ho2, _, _⟩ := readStorage_grows (E := E) s1.sto.addr k s1
  have hold := (readStorage_view (E := E) s1.sto.addr k s1).1
  rw [hview] at hold
  have href : o.gasRefund = s1.out.cur.gasRefund := by
    have : (readStorage E s1.sto.addr k s1).2.out.cur.gasRefund = s1.out.cur.gasRefund := by
      unfold readStorage OutCtx.getAcc OutCtx.setAcc
      dsimp only
      split <;> split <;> rfl
    rw [ho2] at this; exact this
  generalize hq : readStorage E s1.sto.addr k s1 = q at hold ho2
  obtain ⟨old, s2⟩ := q
  dsimp only at hold ho2
  generalize view E s s.sto.addr k = old' at *
  subst hold
  have p2 : Paid s s2 (keyCost s.met.sched k + 0) := p1.trans (.zero (by rw [p1.points]; omega) (by rw [ho2]) (by rw [ho2]) (by rw [ho2]))
  have i2 : s2.rt.instance_ = some i := by rw [p2.rt]; exact hi
  have m2 : s2.met = s.met := p2.met
  have g2 : s2.out.cur.gasRefund = s.out.cur.gasRefund := by rw [ho2, ← o1]; exact href
  simp only [M.bind_eq, M.bind, e1, getStorageUnmetered, M.lift, hq]
  by_cases heq : old = v
  · simp only [if_pos heq, M.bind, M.get]
    obtain ⟨t, f1, f2, f3, _⟩ := useGas_paid i2 (mulU64 s2.met.sched.dataCopyPerByte (UInt64.ofNat v.length))
    rw [f1]
    refine ⟨t, ?_, ?_, fun _ _ => ?_⟩
    · simp only [storeStatus, if_pos heq]; rfl
    · have := (p2.trans (f2.cast (mul_price _ _ hv))).points
      rw [this, m2]
      simp only [storeCost, if_pos heq, Nat.add_zero]
    · rw [f3, g2]
      simp [storeRefund, heq]
  · simp only [if_neg heq, M.bind, M.modify]
    have p3 : Paid s (writeStorage s2.sto.addr k v s2) (keyCost s.met.sched k + 0 + 0) :=
      p2.trans (.zero (by rw [p2.points]; omega) rfl rfl rfl)
    obtain ⟨t, f1, f2, f3⟩ := storageGas_paid (s := writeStorage s2.sto.addr k v s2) i2 (by rw [p3.points]; omega) heq ho hv
    rw [f1]
    refine ⟨t, rfl, ?_, ?_⟩
    · have := (p3.trans f2).points
      rw [this]
      have : (writeStorage s2.sto.addr k v s2).met = s.met := p3.met
      rw [this]; simp only [Nat.add_zero]
    · have m3 : (writeStorage s2.sto.addr k v s2).met = s.met := p3.met
      have g3 : (writeStorage s2.sto.addr k v s2).out.cur.gasRefund = s.out.cur.gasRefund := g2
      rw [m3, g3] at f3
      exact f3

/-! ### C09, continued -/

/-- Host entries are not protected: for any data of at least six bytes that does not start with `ARWEN@` (and is not in the
protocol's name space), any contract can store any value as the host's entry for this data. -/
theorem c09_forge {s : St χ A} {i : Nat} (hi : s.rt.instance_ = some i) (hp : s.pointsUsed.toNat ≤ maxPoints) (kind d v : Bytes)
    (hro : s.rt.cur.readOnly = false) (hd : 6 ≤ d.length) (hna : ¬ arwenPrefix <+: d)
    (hres : ¬ E.elrondPrefix <+: customStorageKey kind d) (hk : (customStorageKey kind d).length < 2 ^ 64) (hv : v.length < 2 ^ 64)
    (ho : (view E s s.sto.addr (customStorageKey kind d)).length < 2 ^ 64) :
    ∃ st t, setStorage E (customStorageKey kind d) v s = (.ok (st, none), t) ∧
      view E t s.sto.addr (customStorageKey kind d) = v := by
  have hprot : ¬ (arwenPrefix <+: customStorageKey kind d ∧ s.sto.protect = true) := by
    rintro ⟨h, _⟩
    exact hna (List.prefix_of_prefix_length_le h (List.prefix_append d kind) hd)
  obtain ⟨t, h1, _, _⟩ := c10_store hi hp (customStorageKey kind d) v hro hres hprot hk hv ho
  refine ⟨_, t, h1, ?_⟩
  rcases setStorage_view h1 with ⟨h2, _, _⟩ | ⟨_, _, _, _, h5, _⟩
  · exfalso
    rcases h2 with h2 | h2 | ⟨h2, h3⟩
    · rw [hro] at h2; cases h2
    · exact hres (List.isPrefixOf_iff_prefix.mp h2)
    · exact hprot ⟨List.isPrefixOf_iff_prefix.mp h2, h3⟩
  · rw [h5]; simp

/-! ### Witnesses and examples -/

open Fixture

/-- a store to the entry of the time lock on the key `abcdef`, by a contract -/
def forgeRun : Res (StorageStatus × Option Err) × St World EeiCall :=
  setStorage env0 (customStorageKey timelockPrefix [97, 98, 99, 100, 101, 102]) [1] running

/-- C09 does not hold: a contract can write the host's entry for a time lock. -/
theorem c09_neg : ¬ ∀ (E : Env World EeiCall) (d v : Bytes) (s : St World EeiCall), s.sto.protect = true →
    ∀ st e t, setStorage E (customStorageKey timelockPrefix d) v s = (.ok (st, e), t) → e ≠ none := by
  intro h
  have hw : (match forgeRun with | (.ok (_, e), _) => decide (e = none) | _ => false) = true := by decide +kernel
  have := h env0 [97, 98, 99, 100, 101, 102] [1] running rfl
  generalize hq : forgeRun = q at hw
  obtain ⟨r, t⟩ := q
  cases r with
  | ok p =>
    obtain ⟨st, e⟩ := p
    exact this st e t hq (of_decide_eq_true hw)
  | panic => cases hw
  | oof => cases hw

/-- a node whose built-in functions write the entry `ELRONDx` of the recipient -/
def writingHook : Hook World :=
  { hook with processBuiltIn := fun w i =>
      (.ok { out := { gasRemaining := 0 } }, { World.cur w with storage := (World.cur w).storage.insert (i.recipient, [69, 76, 82, 79, 78, 68, 120]) [1, 2, 3] } :: w) }

/-- load an own key, call a built-in function on oneself, load the key again, and load it by address; report the lengths -/
def staleProg : P :=
  .store 200 [69, 76, 82, 79, 78, 68, 120] <| .call (.storageLoad 200 7 300) fun _ =>
  callDest (addr 100) [66, 73] 1000 <|
  .call (.storageLoad 200 7 300) fun n => .call (.int64finish n) fun _ =>
  .store 0 (addr 100) <| .call (.storageLoadFromAddress 0 200 7 300) fun m => .call (.int64finish m) fun _ => .ret

def staleEnv : Env World EeiCall := { envWith [([1], mod [(f, staleProg)])] with hook := writingHook, api := eei { envWith [] with hook := writingHook } }

/-- With a node that changes storage, C06 does not hold: after a built-in function has changed an own reserved entry on the chain,
a load still answers the old value, while a load by address answers the new one. -/
theorem c06_stale_neg : (Fixture.outputOf (runTx staleEnv 5 (callTx (addr 1) (addr 100) f) (host (node [(addr 100, contract [1])])))).returnData
    = [[], [3]] := by decide +kernel

/-- the real API without deployments, over the small node -/
def quietEnv (mods : List (Bytes × WasmModule EeiCall)) : Env World EeiCall :=
  Env.without { envWith mods with hook := { hook with revert := fun w _ => w } } [.create]

theorem quietEnv_quiet (mods : List (Bytes × WasmModule EeiCall)) : QuietNode (quietEnv mods) where
  builtin := fun _ _ _ _ => rfl
  revert := fun _ _ _ _ => rfl
  saveCompiled := fun _ _ _ _ _ => rfl
  noUpdates := by
    intro w i b hb a k
    cases hb
    rfl
  noCreate := noCreate_without (by decide)

/-- stores, then calls a contract that stores and fails (the caller survives), loads the entry of the failed one, and returns it
and an own entry -/
def nestProg : P :=
  put [107] [5, 6] <|
  .store 0 (addr 101) <| .store 64 g <| .call (.transferValueExecute 0 32 1000 64 1 0 0 0) fun r => .call (.int64finish r) fun _ =>
  .store 200 [107] <| .call (.storageLoadFromAddress 0 200 1 300) fun n => .call (.int64finish n) fun _ =>
  .call (.storageLoad 200 1 300) fun m => .call (.finish 300 2) fun _ => .call (.int64finish m) fun _ => .ret
def nestEnv : Env World EeiCall := quietEnv [([1], mod [(f, nestProg)]), ([2], mod [(g, put [107] [9] signal)])]
def nestHost : St World EeiCall := host (node [(addr 100, contract [1]), (addr 101, contract [2])])
def nestTx : Tx := callTx (addr 1) (addr 100) f

/-- the hypotheses of `c06_tx` are met by a run with a failed nested call; it reports the caller's update only -/
example : AtRest nestEnv nestHost ∧ nestHost.sto.protect = true ∧ QuietNode nestEnv :=
  ⟨⟨.inl rfl, rfl, .inl rfl⟩, rfl, quietEnv_quiet _⟩
example : (Fixture.outputOf (runTx nestEnv 5 nestTx nestHost)).returnCode = .ok ∧
    (Fixture.outputOf (runTx nestEnv 5 nestTx nestHost)).returnData = [[1], [], [5, 6], [2]] ∧
    pending (Fixture.outputOf (runTx nestEnv 5 nestTx nestHost)) (addr 100) [107] = some [5, 6] ∧
    pending (Fixture.outputOf (runTx nestEnv 5 nestTx nestHost)) (addr 101) [107] = some [] := by decide +kernel

/-- a contract trying to write the protocol's and the host's entries: the execution fails -/
example : codeOf (runTx (envWith [([1], mod [(f, put [69, 76, 82, 79, 78, 68, 1] [1] .ret)])]) 5 nestTx nestHost) = some .executionFailed ∧
    codeOf (runTx (envWith [([1], mod [(f, put [65, 82, 87, 69, 78, 64, 1] [1] .ret)])]) 5 nestTx nestHost) = some .executionFailed ∧
    codeOf (runTx (envWith [([1], mod [(f, put [65, 82, 87, 69, 78, 1] [1] .ret)])]) 5 nestTx nestHost) = some .ok := by decide +kernel

/-- guarded keys exist, and a reported update of one is met with a node that writes storage -/
example : Guarded env0 [69, 76, 82, 79, 78, 68, 1] := .inl ⟨[1], rfl⟩
example : pending (Fixture.outputOf (runTx staleEnv 5 (callTx (addr 1) (addr 100) f) (host (node [(addr 100, contract [1])])))) (addr 100)
    [69, 76, 82, 79, 78, 68, 120] = some [] := by decide +kernel

/-- a store that grows a value, one that shrinks it, and one that deletes it -/
def setTwice (old new : Bytes) : Option (StorageStatus × UInt64 × Int) :=
  match setStorage env0 [107] old running with
  | (.ok _, t) => match setStorage env0 [107] new t with
    | (.ok (st, none), u) => some (st, u.pointsUsed - t.pointsUsed, u.out.cur.gasRefund)
    | _ => none
  | _ => none
example : setTwice [1, 2] [1, 2, 3] = some (.modified, 3, 0) ∧ setTwice [1, 2, 3] [1] = some (.modified, 1, 2) ∧
    setTwice [1, 2, 3] [] = some (.deleted, 0, 3) ∧ setTwice [1, 2] [1, 2] = some (.unchanged, 2, 0) ∧
    setTwice [] [1, 2] = some (.added, 2, 0) ∧ setTwice [1, 2] [2, 1] = some (.modified, 0, 0) := by decide +kernel
example : (running : St World EeiCall).rt.instance_ = some 0 ∧ (running : St World EeiCall).pointsUsed.toNat ≤ maxPoints ∧
    ¬ env0.elrondPrefix <+: ([107] : Bytes) ∧ ¬ arwenPrefix <+: ([107] : Bytes) := by
  refine ⟨rfl, by decide, by decide, by decide⟩

end Arwen.Props
