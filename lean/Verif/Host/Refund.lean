import Verif.Host.Triple
/-
The gas refund: only stores of contracts, nested calls and deployments change it.
-/
namespace Arwen
variable {χ A : Type} {E : Env χ A} {ex : Executor χ A} {g0 : Int}

/-- the accumulated refund is `g` -/
def Held (g : Int) (s : St χ A) : Prop := s.out.cur.gasRefund = g

theorem held_setPointsUsed (g : UInt64) : Keeps (Held (χ := χ) (A := A) g0) (setPointsUsed g) := by
  intro s a t h he
  simp only [setPointsUsed] at he
  split at he
  · simp at he
  · simp only [Prod.mk.injEq] at he; rw [← he.2]; exact h
theorem held_setBreakpoint (b : Breakpoint) : Keeps (Held (χ := χ) (A := A) g0) (setBreakpoint b) := by
  intro s a t h he
  simp only [setBreakpoint] at he
  split at he
  · simp at he
  · simp only [Prod.mk.injEq] at he; rw [← he.2]; exact h
theorem held_getBreakpoint : Keeps (Held (χ := χ) (A := A) g0) getBreakpoint := by
  intro s a t h he
  simp only [getBreakpoint] at he
  split at he
  · simp at he
  · simp only [Prod.mk.injEq] at he; rw [← he.2]; exact h
theorem held_curInst : Keeps (Held (χ := χ) (A := A) g0) curInst := by
  intro s a t h he
  simp only [curInst] at he
  split at he
  · simp at he
  · simp only [Prod.mk.injEq] at he; rw [← he.2]; exact h
theorem held_useGas (g : UInt64) : Keeps (Held (χ := χ) (A := A) g0) (useGas g) := tri_get' fun _ => held_setPointsUsed _
theorem held_useGasBounded (g : UInt64) : Keeps (Held (χ := χ) (A := A) g0) (useGasBounded g) := by
  unfold useGasBounded
  refine tri_get' fun _ => ?_
  split
  · exact tri_pure fun _ h => h
  · exact tri_bind (held_useGas _) fun _ => tri_pure fun _ h => h
theorem held_useGasForAsyncStep : Keeps (Held (χ := χ) (A := A) g0) useGasForAsyncStep := tri_get' fun _ => held_useGasBounded _
theorem held_memStore (o : Int32) (d : Bytes) : Keeps (Held g0) (memStore E o d) := by
  intro s a t h he
  simp only [memStore] at he
  split at he
  · simp only [Prod.mk.injEq] at he; rw [← he.2]; exact h
  · split at he
    · simp at he
    · split at he
      · simp at he
      · simp only [Prod.mk.injEq] at he; rw [← he.2]; exact h

theorem getAcc_refund (c : OutCtx) (a : Addr) : (c.getAcc a).2.2.cur.gasRefund = c.cur.gasRefund := by
  unfold OutCtx.getAcc; split <;> rfl
theorem held_getBalance (a : Addr) (s : St χ A) (h : Held g0 s) : Held g0 (getBalance E a s).2 := by
  have := getAcc_refund s.out a
  simp only [Held] at h ⊢
  unfold getBalance
  generalize s.out.getAcc a = q at this ⊢
  obtain ⟨acc, new, c⟩ := q
  dsimp only at this ⊢
  split
  · rw [← h, ← this]
  · split <;> rw [← h, ← this] <;> rfl
theorem held_getCode (a : Addr) (s : St χ A) (h : Held g0 s) : Held g0 (getCode E a s).2 := by
  have := getAcc_refund s.out a
  simp only [Held] at h ⊢
  unfold getCode
  generalize s.out.getAcc a = q at this ⊢
  obtain ⟨acc, new, c⟩ := q
  dsimp only at this ⊢
  split
  · rw [← h, ← this]
  · split
    · rw [← h, ← this]
    · rw [← h, ← this]
    · split <;> rw [← h, ← this] <;> rfl
theorem held_transferValueOnly (d sn : Addr) (v : Int) (b : Bool) (s : St χ A) (h : Held g0 s) : Held g0 (transferValueOnly E d sn v b s).2 := by
  unfold transferValueOnly
  split
  · exact h
  · have := held_getBalance (E := E) sn s h
    generalize getBalance E sn s = q at this ⊢
    obtain ⟨r, c⟩ := q
    dsimp only at this ⊢
    split
    · exact this
    · split
      · exact this
      · split
        · exact this
        · simp only [Held, OutCtx.modAcc, OutCtx.setAcc, getAcc_refund]; exact this
theorem held_transfer (d sn : Addr) (gl gk : UInt64) (v : Int) (data : Bytes) (ct : CallType) (s : St χ A) (h : Held g0 s) :
    Held g0 (transfer E d sn gl gk v data ct s).2 := by
  unfold transfer
  have := held_transferValueOnly (E := E) d sn v (gl > 0 && ct ≠ .asynchronousCallBack) s h
  generalize transferValueOnly E d sn v (gl > 0 && ct ≠ .asynchronousCallBack) s = q at this ⊢
  obtain ⟨r, c⟩ := q
  dsimp only at this ⊢
  split <;> exact this
theorem held_readStorage (a : Addr) (k : Bytes) (s : St χ A) (h : Held g0 s) : Held g0 (readStorage E a k s).2 := by
  have := getAcc_refund s.out a
  simp only [Held] at h ⊢
  unfold readStorage
  generalize s.out.getAcc a = q at this ⊢
  obtain ⟨acc, new, c⟩ := q
  dsimp only at this ⊢
  split <;> rw [← h, ← this] <;> rfl
theorem held_useKeyGas (k : Bytes) : Keeps (Held (χ := χ) (A := A) g0) (useKeyGas k) := by
  unfold useKeyGas
  refine tri_get' fun _ => ?_
  split
  · exact held_useGas _
  · exact keep_pure
theorem held_getStorageUnmetered (k : Bytes) : Keeps (Held g0) (getStorageUnmetered E k) := by
  intro s a t h he
  exact tri_lift (P := Held g0) (Q := fun _ => Held g0) (fun s h => held_readStorage _ _ s h) s a t h he
theorem held_getStorage (k : Bytes) : Keeps (Held g0) (getStorage E k) := by
  unfold getStorage
  exact keep_bind (held_useKeyGas _) fun _ => keep_bind (held_getStorageUnmetered _) fun _ => tri_get' fun _ =>
    keep_bind (held_useGas _) fun _ => keep_pure
theorem held_getStorageFromAddress (a : Addr) (k : Bytes) : Keeps (Held g0) (getStorageFromAddress E a k) := by
  unfold getStorageFromAddress
  refine keep_bind (held_useKeyGas _) fun _ => tri_get' fun _ => ?_
  split
  · exact keep_pure
  dsimp only
  split
  · exact keep_bind (tri_gets fun _ h => h) fun _ => keep_bind (held_useGas _) fun _ => keep_pure
  · exact keep_bind (keep_lift fun s h => held_readStorage _ _ s h) fun _ => keep_bind (held_useGas _) fun _ => keep_pure
theorem held_executeAsyncCall (a : Addr) (d v : Bytes) : Keeps (Held (χ := χ) (A := A) g0) (executeAsyncCall a d v) := by
  unfold executeAsyncCall
  refine keep_bind held_useGasForAsyncStep fun r => ?_
  split
  · exact keep_pure
  refine keep_bind (keep_bind held_curInst fun _ => keep_pure) fun _ => tri_get' fun _ => ?_
  dsimp only
  have hl : ∀ lock : UInt64, Keeps (Held (χ := χ) (A := A) g0) (do
      M.modify (fun s => s.setAsyncCallInfo
        { destination := a, data := d, gasLimit := s.gasLeft, gasLocked := lock, valueBytes := v })
      setBreakpoint .asyncCall
      pure (none : Option Err)) := fun lock =>
    keep_bind (keep_modify fun _ h => h) fun _ => keep_bind (held_setBreakpoint _) fun _ => keep_pure
  split
  · refine keep_bind (held_useGasBounded _) fun r => ?_
    split
    · exact keep_pure
    · exact hl _
  · exact hl _
theorem held_processBuiltin (i : CallInput) : Keeps (Held g0) (processBuiltin E i) := tri_lift fun _ h => h
theorem held_executeEsdtTransfer (d sn : Addr) (tok : Bytes) (n : UInt64) (v : Int) (ct : CallType) :
    Keeps (Held g0) (executeEsdtTransfer E d sn tok n v ct) := by
  unfold executeEsdtTransfer
  refine tri_get' fun _ => keep_bind (held_processBuiltin _) fun r => ?_
  split
  · exact keep_pure
  split
  · exact keep_pure
  dsimp only
  split
  · refine tri_get' fun _ => ?_
    split
    · exact keep_pure
    · exact keep_bind (held_useGas _) fun _ => keep_pure
  · exact keep_pure
theorem held_transferESDT (d sn : Addr) (tok : Bytes) (n : UInt64) (v : Int) (ci : Option CallInput) :
    Keeps (Held g0) (transferESDT E d sn tok n v ci) := by
  unfold transferESDT
  refine tri_get' fun _ => keep_bind (held_executeEsdtTransfer _ _ _ _ _ _) fun r => ?_
  split
  · exact keep_pure
  refine tri_ite (fun _ => keep_pure) (fun _ => tri_get' fun _ => ?_)
  refine tri_ite (fun _ => keep_pure) (fun _ => ?_)
  refine tri_ite (fun _ => ?_) (fun _ => ?_)
  · exact keep_bind (held_useGas _) fun _ => keep_bind (keep_modify fun _ h => h) fun _ =>
      keep_bind (keep_modify fun _ h => h) fun _ => keep_pure
  · exact keep_bind (keep_modify fun _ h => h) fun _ =>
      keep_bind (keep_modify fun _ h => h) fun _ => keep_pure

end Arwen
